import json,sys
p='/verif/tools/notes.json'
n=json.load(open(p))
n.update(json.load(sys.stdin))
json.dump(dict(sorted(n.items())),open(p,'w'),indent=1,ensure_ascii=False)
