import Verif.Lemmas.Fixed

/-! # Finer bounds of the indices of three glasses of the catalogues

For the two lenses of the catalogues whose focal length is written as an integer. Numbers computed outside Lean; `fine_ok` and its neighbours of
`Verif.Lemmas.CatalogueInt` check every one of them against the formulas of the glasses. -/

namespace RT

/-- Intervals of wavelengths from 0.38 to 1.1 microns. -/
def nearCells : List (ℚ × ℚ) := [
  (0.38, 0.3822), (0.3822, 0.385), (0.385, 0.3886), (0.3886, 0.3922), (0.3922, 0.3968), (0.3968, 0.4026), (0.4026, 0.4084), (0.4084, 0.4157),
  (0.4157, 0.4249), (0.4249, 0.4365), (0.4365, 0.4481), (0.4481, 0.4626), (0.4626, 0.4808), (0.4808, 0.499), (0.499, 0.5218), (0.5218,
  0.5446), (0.5446, 0.5732), (0.5732, 0.609), (0.609, 0.6538), (0.6538, 0.7098), (0.7098, 0.7658), (0.7658, 0.8359), (0.8359, 0.906), (0.906,
  0.962), (0.962, 1.018), (1.018, 1.0538), (1.0538, 1.0824), (1.0824, 1.1)]

/-- Bounds of the index of `N_BK7` over each of them, in units of 10⁻¹². -/
def near_N_BK7 : List Fx := [
  ⟨1533401802689, 1533744865926⟩, ⟨1532974449744, 1533401802690⟩, ⟨1532439739095, 1532974449745⟩, ⟨1531920968343, 1532439739096⟩,
  ⟨1531280241199, 1531920968344⟩, ⟨1530505918141, 1531280241200⟩, ⟨1529766777557, 1530505918142⟩, ⟨1528883075811, 1529766777558⟩,
  ⟨1527837546732, 1528883075812⟩, ⟨1526617314962, 1527837546733⟩, ⟨1525494813053, 1526617314963⟩, ⟨1524212768233, 1525494813054⟩,
  ⟨1522768597515, 1524212768234⟩, ⟨1521481164028, 1522768597516⟩, ⟨1520053669325, 1521481164029⟩, ⟨1518797971266, 1520053669326⟩,
  ⟨1517421299961, 1518797971267⟩, ⟨1515946671746, 1517421299962⟩, ⟨1514399801977, 1515946671747⟩, ⟨1512807618219, 1514399801978⟩,
  ⟨1511485659514, 1512807618220⟩, ⟨1510093542112, 1511485659515⟩, ⟨1508900743586, 1510093542113⟩, ⟨1508046042901, 1508900743587⟩,
  ⟨1507252769032, 1508046042902⟩, ⟨1506769669407, 1507252769033⟩, ⟨1506394223345, 1506769669408⟩, ⟨1506167057488, 1506394223346⟩]

/-- Bounds of the index of `SF2` over each of them, in units of 10⁻¹². -/
def near_SF2 : List Fx := [
  ⟨1691525796930, 1692551325715⟩, ⟨1690256102499, 1691525796931⟩, ⟨1688679442015, 1690256102500⟩, ⟨1687162307797, 1688679442016⟩,
  ⟨1685305207617, 1687162307798⟩, ⟨1683084975392, 1685305207618⟩, ⟨1680989640559, 1683084975393⟩, ⟨1678514530886, 1680989640560⟩,
  ⟨1675627319993, 1678514530887⟩, ⟨1672312514026, 1675627319994⟩, ⟨1669313994757, 1672312514027⟩, ⟨1665947482112, 1669313994758⟩,
  ⟨1662228311362, 1665947482113⟩, ⟨1658977554998, 1662228311363⟩, ⟨1655444965095, 1658977554999⟩, ⟨1652401402037, 1655444965096⟩,
  ⟨1649136499949, 1652401402038⟩, ⟨1645729001193, 1649136499950⟩, ⟨1642266250937, 1645729001194⟩, ⟨1638842103000, 1642266250938⟩,
  ⟨1636129164746, 1638842103001⟩, ⟨1633427269171, 1636129164747⟩, ⟨1631261471939, 1633427269172⟩, ⟨1629804452309, 1631261471940⟩,
  ⟨1628527017489, 1629804452310⟩, ⟨1627784778797, 1628527017490⟩, ⟨1627226408042, 1627784778798⟩, ⟨1626896273421, 1627226408043⟩]

/-- Bounds of the index of `SF5` over each of them, in units of 10⁻¹². -/
def near_SF5 : List Fx := [
  ⟨1720858970754, 1721994976823⟩, ⟨1719453131740, 1720858970755⟩, ⟨1717708381890, 1719453131741⟩, ⟨1716030508255, 1717708381891⟩,
  ⟨1713977973688, 1716030508256⟩, ⟨1711525980302, 1713977973689⟩, ⟨1709213781081, 1711525980303⟩, ⟨1706484792136, 1709213781082⟩,
  ⟨1703304519239, 1706484792137⟩, ⟨1699657282454, 1703304519240⟩, ⟨1696361711304, 1699657282455⟩, ⟨1692665785446, 1696361711305⟩,
  ⟨1688587698905, 1692665785447⟩, ⟨1685027544942, 1688587698906⟩, ⟨1681163368682, 1685027544943⟩, ⟨1677838119072, 1681163368683⟩,
  ⟨1674275393786, 1677838119073⟩, ⟨1670562306703, 1674275393787⟩, ⟨1666795319747, 1670562306704⟩, ⟨1663078021179, 1666795319748⟩,
  ⟨1660139902842, 1663078021180⟩, ⟨1657222263120, 1660139902843⟩, ⟨1654891985459, 1657222263121⟩, ⟨1653329969004, 1654891985460⟩,
  ⟨1651965186262, 1653329969005⟩, ⟨1651174558630, 1651965186263⟩, ⟨1650581062228, 1651174558631⟩, ⟨1650230709051, 1650581062229⟩]

/-- Intervals of wavelengths from 0.29 to 0.35, then from 1.3 to 6.4 microns. -/
def farCells : List (ℚ × ℚ) := [
  (0.29, 0.2992), (0.2992, 0.3084), (0.3084, 0.3157), (0.3157, 0.323), (0.323, 0.3288), (0.3288, 0.3334), (0.3334, 0.337), (0.337, 0.3406),
  (0.3406, 0.3434), (0.3434, 0.3462), (0.3462, 0.3484), (0.3484, 0.35), (1.3, 1.356), (1.356, 1.4437), (1.4437, 1.6153), (1.6153, 1.9507),
  (1.9507, 2.606), (2.606, 3.63), (3.63, 4.91), (4.91, 6.4)]

/-- Bounds of the index of `N_BK7` over each of them, in units of 10⁻¹². -/
def far_N_BK7 : List Fx := [
  ⟨1553056251609, 1556556492515⟩, ⟨1549927054592, 1553056251610⟩, ⟨1547672349008, 1549927054593⟩, ⟨1545595140096, 1547672349009⟩,
  ⟨1544058493750, 1545595140097⟩, ⟨1542905228638, 1544058493751⟩, ⟨1542040355252, 1542905228639⟩, ⟨1541206727045, 1542040355253⟩,
  ⟨1540578943800, 1541206727046⟩, ⟨1539968416139, 1540578943801⟩, ⟨1539500389535, 1539968416140⟩, ⟨1539166265426, 1539500389536⟩,
  ⟨1503028354105, 1503703461772⟩, ⟨1501965208411, 1503028354106⟩, ⟨1499825443231, 1501965208412⟩, ⟨1495234877709, 1499825443232⟩,
  ⟨1483945691209, 1495234877710⟩, ⟨1457709191680, 1483945691210⟩, ⟨1401874306163, 1457709191681⟩, ⟨1269060135303, 1401874306164⟩]

/-- Bounds of the index of `SF2` over each of them, in units of 10⁻¹². -/
def far_SF2 : List Fx := [
  ⟨1762510989686, 1778954437307⟩, ⟨1749070141123, 1762510989687⟩, ⟨1740010025539, 1749070141124⟩, ⟨1732068861321, 1740010025540⟩,
  ⟨1726420963443, 1732068861322⟩, ⟨1722299286225, 1726420963444⟩, ⟨1719270558940, 1722299286226⟩, ⟨1716399559568, 1719270558941⟩,
  ⟨1714267692033, 1716399559569⟩, ⟨1712218546421, 1714267692034⟩, ⟨1710663387761, 1712218546422⟩, ⟨1709561326002, 1710663387762⟩,
  ⟨1622860683072, 1623655603169⟩, ⟨1621671944694, 1622860683073⟩, ⟨1619459085513, 1621671944695⟩, ⟨1615189644339, 1619459085514⟩,
  ⟨1605704564630, 1615189644340⟩, ⟨1584955507352, 1605704564631⟩, ⟨1542557860651, 1584955507353⟩, ⟨1448125004455, 1542557860652⟩]

/-- Bounds of the index of `SF5` over each of them, in units of 10⁻¹². -/
def far_SF5 : List Fx := [
  ⟨1800793729860, 1819767354715⟩, ⟨1785427434732, 1800793729861⟩, ⟨1775136727253, 1785427434733⟩, ⟨1766158830321, 1775136727254⟩,
  ⟨1759796253200, 1766158830322⟩, ⟨1755164446220, 1759796253201⟩, ⟨1751766823848, 1755164446221⟩, ⟨1748550694342, 1751766823849⟩,
  ⟨1746165361993, 1748550694343⟩, ⟨1743874807284, 1746165361994⟩, ⟨1742137868415, 1743874807285⟩, ⟨1740907727979, 1742137868416⟩,
  ⟨1645986071906, 1646816204561⟩, ⟨1644750265456, 1645986071907⟩, ⟨1642466467091, 1644750265457⟩, ⟨1638107557108, 1642466467092⟩,
  ⟨1628531069347, 1638107557109⟩, ⟨1607705151097, 1628531069348⟩, ⟨1565209581738, 1607705151098⟩, ⟨1470515680299, 1565209581739⟩]

end RT
