import Verif.Lemmas.Fixed

/-! # Bounds of the indices of the glasses of the catalogues

Numbers computed outside Lean; `indexRows_ok` of `Verif.Lemmas.Catalogue` checks every one of them against the formulas of the glasses. -/

namespace RT

/-- The intervals of wavelengths (microns): the two of reference, then all those from 0.29 to 6.4. -/
def indexCells : List (ℚ × ℚ) := [
  (0.5876, 0.5876), (0.855, 0.855), (0.29, 0.3), (0.3, 0.31), (0.31, 0.33), (0.33, 0.38), (0.38, 0.4), (0.4, 0.407), (0.407, 0.415), (0.415, 0.424), (0.424, 0.434), (0.434, 0.446), (0.446, 0.46), (0.46, 0.476), (0.476, 0.496), (0.496, 0.52), (0.52, 0.549), (0.549, 0.586), (0.586, 0.634), (0.634, 0.698), (0.698, 0.787), (0.787, 0.8), (0.8, 2.66), (2.66, 4.5), (4.5, 5.4), (5.4, 5.7), (5.7, 6.0), (6.0, 6.3), (6.3, 6.4)]

/-- Bounds of the index of `N_BAK4` over each interval, in units of 10⁻¹². -/
def index_N_BAK4 : List Fx := [
  ⟨1568825485963, 1568825485964⟩, ⟨1560283543485, 1560283543486⟩, ⟨1616894236625, 1622315944131⟩, ⟨1612162081536, 1616894236626⟩, ⟨1604304458989, 1612162081537⟩,
  ⟨1590782917113, 1604304458990⟩, ⟨1586946164458, 1590782917114⟩, ⟨1585752078537, 1586946164459⟩, ⟨1584469347026, 1585752078538⟩, ⟨1583121522625, 1584469347027⟩,
  ⟨1581730853363, 1583121522626⟩, ⟨1580194815945, 1581730853364⟩, ⟨1578564162094, 1580194815946⟩, ⟨1576885291523, 1578564162095⟩, ⟨1575022534368, 1576885291524⟩,
  ⟨1573074887782, 1575022534369⟩, ⟨1571059973779, 1573074887783⟩, ⟨1568909603909, 1571059973780⟩, ⟨1566645157178, 1568909603910⟩, ⟨1564275885694, 1566645157179⟩,
  ⟨1561783896806, 1564275885695⟩, ⟨1561475145345, 1561783896807⟩, ⟨1534776208418, 1561475145346⟩, ⟨1482741515463, 1534776208419⟩, ⟨1436219139818, 1482741515464⟩,
  ⟨1415472396979, 1436219139819⟩, ⟨1391085696650, 1415472396980⟩, ⟨1362117171749, 1391085696651⟩, ⟨1351229536759, 1362117171750⟩]

/-- Bounds of the index of `SF5` over each interval, in units of 10⁻¹². -/
def index_SF5 : List Fx := [
  ⟨1672693461890, 1672693461891⟩, ⟨1656538101677, 1656538101678⟩, ⟨1799331603638, 1819767354715⟩, ⟨1783044355256, 1799331603639⟩, ⟨1758554701293, 1783044355257⟩,
  ⟨1721994976822, 1758554701294⟩, ⟨1712607131144, 1721994976823⟩, ⟨1709759733643, 1712607131145⟩, ⟨1706738229358, 1709759733644⟩, ⟨1703603777282, 1706738229359⟩,
  ⟨1700411805408, 1703603777283⟩, ⟨1696934490102, 1700411805409⟩, ⟨1693297006636, 1696934490103⟩, ⟨1689608749634, 1693297006637⟩, ⟨1685582770065, 1689608749635⟩,
  ⟨1681447316963, 1685582770066⟩, ⟨1677249437898, 1681447316964⟩, ⟨1672862995467, 1677249437899⟩, ⟨1668357199719, 1672862995468⟩, ⟨1663787006457, 1668357199720⟩,
  ⟨1659181304235, 1663787006458⟩, ⟨1658628360172, 1659181304236⟩, ⟨1627636649308, 1658628360173⟩, ⟨1581450803752, 1627636649309⟩, ⟨1541392919401, 1581450803753⟩,
  ⟨1523821863325, 1541392919402⟩, ⟨1503391592501, 1523821863326⟩, ⟨1479433453419, 1503391592502⟩, ⟨1470515680299, 1479433453420⟩]

/-- Bounds of the index of `N_BAF10` over each interval, in units of 10⁻¹². -/
def index_N_BAF10 : List Fx := [
  ⟨1670027046547, 1670027046548⟩, ⟨1658417070026, 1658417070027⟩, ⟨1742953773913, 1752269237888⟩, ⟨1735071237583, 1742953773914⟩, ⟨1722419308867, 1735071237584⟩,
  ⟨1701675254265, 1722419308868⟩, ⟨1695982149283, 1701675254266⟩, ⟨1694225467088, 1695982149284⟩, ⟨1692346062601, 1694225467089⟩, ⟨1690379677450, 1692346062602⟩,
  ⟨1688359605903, 1690379677451⟩, ⟨1686138581838, 1688359605904⟩, ⟨1683792273557, 1686138581839⟩, ⟨1681388837372, 1683792273558⟩, ⟨1678736635686, 1681388837373⟩,
  ⟨1675980004446, 1678736635687⟩, ⟨1673146381109, 1675980004447⟩, ⟨1670144006858, 1673146381110⟩, ⟨1667009486341, 1670144006859⟩, ⟨1663765632307, 1667009486342⟩,
  ⟨1660405610731, 1663765632308⟩, ⟨1659993981181, 1660405610732⟩, ⟨1629027172425, 1659993981182⟩, ⟨1572355351364, 1629027172426⟩, ⟨1521681090466, 1572355351365⟩,
  ⟨1499056765056, 1521681090467⟩, ⟨1472439824518, 1499056765057⟩, ⟨1440787541489, 1472439824519⟩, ⟨1428881156924, 1440787541490⟩]

/-- Bounds of the index of `N_SF6HT` over each interval, in units of 10⁻¹². -/
def index_N_SF6HT : List Fx := [
  ⟨1805174118450, 1805174118451⟩, ⟨1781295946823, 1781295946824⟩, ⟨2041112938317, 2094587338715⟩, ⟨2002967802135, 2041112938318⟩, ⟨1951443173011, 2002967802136⟩,
  ⟨1884138375769, 1951443173012⟩, ⟨1868248497509, 1884138375770⟩, ⟨1863520521219, 1868248497510⟩, ⟨1858547189787, 1863520521220⟩, ⟨1853433817939, 1858547189788⟩,
  ⟨1848272812707, 1853433817940⟩, ⟨1842701424020, 1848272812708⟩, ⟨1836927979335, 1842701424021⟩, ⟨1831128509688, 1836927979336⟩, ⟨1824857999095, 1831128509689⟩,
  ⟨1818479349063, 1824857999096⟩, ⟨1812066320337, 1818479349064⟩, ⟨1805429346689, 1812066320338⟩, ⟨1798678110799, 1805429346690⟩, ⟨1791898633500, 1798678110800⟩,
  ⟨1785138940403, 1791898633501⟩, ⟨1784332659354, 1785138940404⟩, ⟨1742224006660, 1784332659355⟩, ⟨1686650650877, 1742224006661⟩, ⟨1642807509124, 1686650650878⟩,
  ⟨1624702896995, 1642807509125⟩, ⟨1604448304946, 1624702896996⟩, ⟨1581721470702, 1604448304947⟩, ⟨1573530412104, 1581721470703⟩]

/-- Bounds of the index of `N_SF11` over each interval, in units of 10⁻¹². -/
def index_N_SF11 : List Fx := [
  ⟨1784714103024, 1784714103025⟩, ⟨1761680443642, 1761680443643⟩, ⟨2013576945409, 2066517287123⟩, ⟨1976118751695, 2013576945410⟩, ⟨1925877915390, 1976118751696⟩,
  ⟨1860741235456, 1925877915391⟩, ⟨1845422226614, 1860741235457⟩, ⟨1840867202339, 1845422226615⟩, ⟨1836077123695, 1840867202340⟩, ⟨1831153447653, 1836077123696⟩,
  ⟨1826185075696, 1831153447654⟩, ⟨1820822772766, 1826185075697⟩, ⟨1815267012451, 1820822772767⟩, ⟨1809686981476, 1815267012452⟩, ⟨1803654244059, 1809686981477⟩,
  ⟨1797517535188, 1803654244060⟩, ⟨1791347177698, 1797517535189⟩, ⟨1784959783274, 1791347177699⟩, ⟨1778459227874, 1784959783275⟩, ⟨1771925483897, 1778459227875⟩,
  ⟨1765399509802, 1771925483898⟩, ⟨1764619918236, 1765399509803⟩, ⟨1722410480296, 1764619918237⟩, ⟨1663910749837, 1722410480297⟩, ⟨1616674395075, 1663910749838⟩,
  ⟨1596890734328, 1616674395076⟩, ⟨1574560968327, 1596890734329⟩, ⟨1549253492409, 1574560968328⟩, ⟨1540065815618, 1549253492410⟩]

/-- Bounds of the index of `N_BK7` over each interval, in units of 10⁻¹². -/
def index_N_BK7 : List Fx := [
  ⟨1516798437905, 1516798437906⟩, ⟨1509752065788, 1509752065789⟩, ⟨1552770263573, 1556556492515⟩, ⟨1549416606894, 1552770263574⟩, ⟨1543752253159, 1549416606895⟩,
  ⟨1533744865925, 1543752253160⟩, ⟨1530848538249, 1533744865926⟩, ⟨1529942091850, 1530848538250⟩, ⟨1528965664543, 1529942091851⟩, ⟨1527936656660, 1528965664544⟩,
  ⟨1526871632264, 1527936656661⟩, ⟨1525691287540, 1526871632265⟩, ⟨1524433497701, 1525691287541⟩, ⟨1523133173849, 1524433497702⟩, ⟨1521683646354, 1523133173850⟩,
  ⟨1520159688246, 1521683646355⟩, ⟨1518572836436, 1520159688247⟩, ⟨1516865556749, 1518572836437⟩, ⟨1515048205001, 1516865556750⟩, ⟨1513117370985, 1515048205002⟩,
  ⟨1511038443939, 1513117370986⟩, ⟨1510776231419, 1511038443940⟩, ⟨1482849663300, 1510776231420⟩, ⟨1423492558500, 1482849663301⟩, ⟨1369577423662, 1423492558501⟩,
  ⟨1345289030870, 1369577423663⟩, ⟨1316538460693, 1345289030871⟩, ⟨1282092287752, 1316538460694⟩, ⟨1269060135303, 1282092287753⟩]

/-- Bounds of the index of `N_SF10` over each interval, in units of 10⁻¹². -/
def index_N_SF10 : List Fx := [
  ⟨1728272169966, 1728272169967⟩, ⟨1708785984472, 1708785984473⟩, ⟨1906170232757, 1942983224898⟩, ⟨1879116631118, 1906170232758⟩, ⟨1841514919226, 1879116631119⟩,
  ⟨1790578894841, 1841514919227⟩, ⟨1778259755055, 1790578894842⟩, ⟨1774573035067, 1778259755056⟩, ⟨1770684558444, 1774573035068⟩, ⟨1766675458587, 1770684558445⟩,
  ⟨1762617586110, 1766675458588⟩, ⟨1758224163621, 1762617586111⟩, ⟨1753657262023, 1758224163622⟩, ⟨1749055194783, 1753657262024⟩, ⟨1744062702857, 1749055194784⟩,
  ⟨1738965984104, 1744062702858⟩, ⟨1733822653229, 1738965984105⟩, ⟨1728478161334, 1733822653230⟩, ⟨1723016581543, 1728478161335⟩, ⟨1717501609141, 1723016581544⟩,
  ⟨1711961734399, 1717501609142⟩, ⟨1711297333147, 1711961734400⟩, ⟨1673299224727, 1711297333148⟩, ⟨1617962851120, 1673299224728⟩, ⟨1572803768563, 1617962851121⟩,
  ⟨1553776754118, 1572803768564⟩, ⟨1532221292421, 1553776754119⟩, ⟨1507689150147, 1532221292422⟩, ⟨1498756025023, 1507689150148⟩]

/-- Bounds of the index of `E_BAF11` over each interval, in units of 10⁻¹². -/
def index_E_BAF11 : List Fx := [
  ⟨1666715311877, 1666715311878⟩, ⟨1655433632772, 1655433632773⟩, ⟨1735839379575, 1745829471593⟩, ⟨1728572324360, 1737039298360⟩, ⟨1716339710350, 1729870734899⟩,
  ⟨1696294331252, 1718078790418⟩, ⟨1691608126477, 1697468529312⟩, ⟨1690059852676, 1691857193439⟩, ⟨1688250224565, 1690167445258⟩, ⟨1686357115738, 1688356841139⟩,
  ⟨1684412083891, 1686459871021⟩, ⟨1682268603161, 1684512604602⟩, ⟨1680004841396, 1682367110334⟩, ⟨1677685532890, 1680096740300⟩, ⟨1675120439430, 1677771525157⟩,
  ⟨1672454663690, 1675199840485⟩, ⟨1669712036646, 1672523506400⟩, ⟨1666802243063, 1669770296877⟩, ⟨1663762426071, 1666849873163⟩, ⟨1660615028889, 1663798676066⟩,
  ⟨1657354699672, 1660640351327⟩, ⟨1656963989764, 1657365657308⟩, ⟨1628271376554, 1656973529184⟩, ⟨1586530785393, 1628280180847⟩, ⟨1557965381090, 1586530791985⟩,
  ⟨1547167824421, 1557965381311⟩, ⟨1535709034415, 1547167824468⟩, ⟨1523573461871, 1535709034448⟩, ⟨1519375009836, 1523573461889⟩]

/-- Bounds of the index of `E_FD10` over each interval, in units of 10⁻¹². -/
def index_E_FD10 : List Fx := [
  ⟨1728244846268, 1728244846269⟩, ⟨1708628220571, 1708628220572⟩, ⟨1886301466632, 1953968862252⟩, ⟨1864977208263, 1919194269918⟩, ⟨1821134028959, 1900795855574⟩,
  ⟨1763007394957, 1869742718573⟩, ⟨1773014957644, 1796634325464⟩, ⟨1773344969059, 1780139130895⟩, ⟨1769407906151, 1776422475654⟩, ⟨1765399886481, 1772461022989⟩,
  ⟨1761383748219, 1768345883446⟩, ⟨1756949308572, 1764268961897⟩, ⟨1752420348802, 1759780293689⟩, ⟨1747911706098, 1755064812188⟩, ⟨1742934182191, 1750389268325⟩,
  ⟨1737944637861, 1745224981081⟩, ⟨1732924272344, 1739933513112⟩, ⟨1727679864026, 1734609665751⟩, ⟨1722337600080, 1729059631115⟩, ⟨1716948059410, 1723389135280⟩,
  ⟨1711527503554, 1717683585818⟩, ⟨1711126464207, 1711846202121⟩, ⟨1670795552376, 1711403917315⟩, ⟨1617159223898, 1671053265341⟩, ⟨1580146283337, 1617159418147⟩,
  ⟨1566110098292, 1580146289859⟩, ⟨1551184901843, 1566110099656⟩, ⟨1535343781799, 1551184902802⟩, ⟨1529854861123, 1535343782306⟩]

/-- Bounds of the index of `N_SF5` over each interval, in units of 10⁻¹². -/
def index_N_SF5 : List Fx := [
  ⟨1672703018445, 1672703018446⟩, ⟨1656507365422, 1656507365423⟩, ⟨1811948417201, 1839517925740⟩, ⟨1791458100203, 1811948417202⟩, ⟨1762621917723, 1791458100204⟩,
  ⟨1722811350877, 1762621917724⟩, ⟨1713038776385, 1722811350878⟩, ⟨1710102387504, 1713038776386⟩, ⟨1706999272647, 1710102387505⟩, ⟨1703793303884, 1706999272648⟩,
  ⟨1700541385175, 1703793303885⟩, ⟨1697012502333, 1700541385176⟩, ⟨1693335150782, 1697012502334⟩, ⟨1689619747065, 1693335150783⟩, ⟨1685577588933, 1689619747066⟩,
  ⟨1681437884874, 1685577588934⟩, ⟨1677245681683, 1681437884875⟩, ⟨1672871988857, 1677245681684⟩, ⟨1668380551178, 1672871988858⟩, ⟨1663816197797, 1668380551179⟩,
  ⟨1659188845890, 1663816197798⟩, ⟨1658629958676, 1659188845891⟩, ⟨1622704783812, 1658629958677⟩, ⟨1564567873878, 1622704783813⟩, ⟨1515452980456, 1564567873879⟩,
  ⟨1494316242190, 1515452980457⟩, ⟨1470043823391, 1494316242191⟩, ⟨1441985324913, 1470043823392⟩, ⟨1431650422185, 1441985324914⟩]

/-- Bounds of the index of `N_SSK5` over each interval, in units of 10⁻¹². -/
def index_N_SSK5 : List Fx := [
  ⟨1658437521622, 1658437521623⟩, ⟨1647778506056, 1647778506057⟩, ⟨1722856847118, 1730775796047⟩, ⟨1716100574900, 1722856847119⟩, ⟨1705149528472, 1716100574901⟩,
  ⟨1686912084240, 1705149528473⟩, ⟨1681846954411, 1686912084241⟩, ⟨1680278940726, 1681846954412⟩, ⟨1678598740653, 1680278940727⟩, ⟨1676837864503, 1678598740654⟩,
  ⟨1675025820464, 1676837864504⟩, ⟨1673029912481, 1675025820465⟩, ⟨1670917325629, 1673029912482⟩, ⟨1668748942837, 1670917325630⟩, ⟨1666350989367, 1668748942838⟩,
  ⟨1663852860778, 1666350989368⟩, ⟨1661278736615, 1663852860779⟩, ⟨1658544201232, 1661278736616⟩, ⟨1655681019777, 1658544201233⟩, ⟨1652708072242, 1655681019778⟩,
  ⟨1649616006923, 1652708072243⟩, ⟨1649236155823, 1649616006924⟩, ⟨1619850910351, 1649236155824⟩, ⟨1565559162168, 1619850910352⟩, ⟨1517246005197, 1565559162169⟩,
  ⟨1495752678518, 1517246005198⟩, ⟨1470528367700, 1495752678519⟩, ⟨1440620864375, 1470528367701⟩, ⟨1429396096177, 1440620864376⟩]

/-- Bounds of the index of `LAFN7` over each interval, in units of 10⁻¹². -/
def index_LAFN7 : List Fx := [
  ⟨1749497687588, 1749497687589⟩, ⟨1732530900651, 1732530900652⟩, ⟨1872672951929, 1890992239957⟩, ⟨1857722924020, 1872672951930⟩, ⟨1834692208457, 1857722924021⟩,
  ⟨1799195337688, 1834692208458⟩, ⟨1789887776317, 1799195337689⟩, ⟨1787050351034, 1789887776318⟩, ⟨1784032245990, 1787050351035⟩, ⟨1780893566013, 1784032245991⟩,
  ⟨1777689214027, 1780893566014⟩, ⟨1774189144171, 1777689214028⟩, ⟨1770517450977, 1774189144172⟩, ⟨1766783459151, 1770517450978⟩, ⟨1762694435143, 1766783459152⟩,
  ⟨1758479125656, 1762694435144⟩, ⟨1754183004541, 1758479125657⟩, ⟨1749672515391, 1754183004542⟩, ⟨1745010938592, 1749672515392⟩, ⟨1740242287445, 1745010938593⟩,
  ⟨1735372356939, 1740242287446⟩, ⟨1734781426312, 1735372356940⟩, ⟨1694196972178, 1734781426313⟩, ⟨1618034326107, 1694196972179⟩, ⟨1542427249486, 1618034326108⟩,
  ⟨1505998510478, 1542427249487⟩, ⟨1460754031849, 1505998510479⟩, ⟨1403208973788, 1460754031850⟩, ⟨1380401546108, 1403208973789⟩]

/-- Bounds of the index of `SF2` over each interval, in units of 10⁻¹². -/
def index_SF2 : List Fx := [
  ⟨1647685395240, 1647685395241⟩, ⟨1632792236033, 1632792236034⟩, ⟨1761236736717, 1778954437307⟩, ⟨1746976146350, 1761236736718⟩, ⟨1725316979306, 1746976146351⟩,
  ⟨1692551325714, 1725316979307⟩, ⟨1684064164235, 1692551325715⟩, ⟨1681484533786, 1684064164236⟩, ⟨1678744484683, 1681484533787⟩, ⟨1675899128854, 1678744484684⟩,
  ⟨1672998583847, 1675899128855⟩, ⟨1669835370562, 1672998583848⟩, ⟨1666522721467, 1669835370563⟩, ⟨1663159948185, 1666522721468⟩, ⟨1659484771502, 1663159948186⟩,
  ⟨1655704700688, 1659484771503⟩, ⟨1651862222940, 1655704700689⟩, ⟨1647840951959, 1651862222941⟩, ⟨1643702765606, 1647840951960⟩, ⟨1639495812109, 1643702765607⟩,
  ⟨1635242445672, 1639495812110⟩, ⟨1634730545585, 1635242445673⟩, ⟨1604815315070, 1634730545586⟩, ⟨1558762412612, 1604815315071⟩, ⟨1518798218564, 1558762412613⟩,
  ⟨1501272681359, 1518798218565⟩, ⟨1480899461122, 1501272681360⟩, ⟨1457014074288, 1480899461123⟩, ⟨1448125004455, 1457014074289⟩]

/-- Bounds of the index of `N_LAK22` over each interval, in units of 10⁻¹². -/
def index_N_LAK22 : List Fx := [
  ⟨1651128158338, 1651128158339⟩, ⟨1641341638633, 1641341638634⟩, ⟨1705139629656, 1710984861962⟩, ⟨1699983583430, 1705139629657⟩, ⟨1691321824058, 1699983583431⟩,
  ⟨1676171736276, 1691321824059⟩, ⟨1671827152639, 1676171736277⟩, ⟨1670471598890, 1671827152640⟩, ⟨1669013732838, 1670471598891⟩, ⟨1667480100148, 1669013732839⟩,
  ⟨1665895898302, 1667480100149⟩, ⟨1664144082035, 1665895898303⟩, ⟨1662282206113, 1664144082036⟩, ⟨1660363157757, 1662282206114⟩, ⟨1658231667077, 1660363157758⟩,
  ⟨1656000861191, 1658231667078⟩, ⟨1653691124567, 1656000861192⟩, ⟨1651224660106, 1653691124568⟩, ⟨1648626746645, 1651224660107⟩, ⟨1645909588511, 1648626746646⟩,
  ⟨1643055809979, 1645909588512⟩, ⟨1642702746047, 1643055809980⟩, ⟨1612866064780, 1642702746048⟩, ⟨1554582817910, 1612866064781⟩, ⟨1501517606223, 1554582817911⟩,
  ⟨1477546830367, 1501517606224⟩, ⟨1449121130916, 1477546830368⟩, ⟨1414994997427, 1449121130917⟩, ⟨1402065370826, 1414994997428⟩]

/-- Bounds of the index of `N_SK16` over each interval, in units of 10⁻¹². -/
def index_N_SK16 : List Fx := [
  ⟨1620407933069, 1620407933070⟩, ⟨1611612693201, 1611612693202⟩, ⟨1667261221780, 1672272272233⟩, ⟨1662834973428, 1667261221781⟩, ⟨1655384164468, 1662834973429⟩,
  ⟨1642295529294, 1655384164469⟩, ⟨1638525759056, 1642295529295⟩, ⟨1637347789485, 1638525759057⟩, ⟨1636079907729, 1637347789486⟩, ⟨1634744956905, 1636079907730⟩,
  ⟨1633364652607, 1634744956906⟩, ⟨1631836625378, 1633364652608⟩, ⟨1630210513983, 1631836625379⟩, ⟨1628532014157, 1630210513984⟩, ⟨1626664444630, 1628532014158⟩,
  ⟨1624705659239, 1626664444631⟩, ⟨1622672215184, 1624705659240⟩, ⟨1620493365421, 1622672215185⟩, ⟨1618187565034, 1620493365422⟩, ⟨1615759291860, 1618187565035⟩,
  ⟨1613181306622, 1615759291861⟩, ⟨1612859680347, 1613181306623⟩, ⟨1582506615653, 1612859680348⟩, ⟨1518993978474, 1582506615654⟩, ⟨1459070031038, 1518993978475⟩,
  ⟨1431324954005, 1459070031039⟩, ⟨1397852392545, 1431324954006⟩, ⟨1356812808964, 1397852392546⟩, ⟨1341010318904, 1356812808965⟩]

/-- Bounds of the index of `N_LASF9` over each interval, in units of 10⁻¹². -/
def index_N_LASF9 : List Fx := [
  ⟨1850244205571, 1850244205572⟩, ⟨1829839723463, 1829839723464⟩, ⟨2013932477647, 2041711012278⟩, ⟨1992182432444, 2013932477648⟩, ⟨1960014482110, 1992182432445⟩,
  ⟨1912876825789, 1960014482111⟩, ⟨1900892273897, 1912876825790⟩, ⟨1897264306812, 1900892273898⟩, ⟨1893417704020, 1897264306813⟩, ⟨1889430560240, 1893417704021⟩,
  ⟨1885373407619, 1889430560241⟩, ⟨1880956916728, 1885373407620⟩, ⟨1876340421715, 1880956916729⟩, ⟨1871662741909, 1876340421716⟩, ⟨1866560128103, 1871662741910⟩,
  ⟨1861322093195, 1866560128104⟩, ⟨1856008128711, 1861322093196⟩, ⟨1850458627149, 1856008128712⟩, ⟨1844761470339, 1850458627150⟩, ⟨1838986784786, 1844761470340⟩,
  ⟨1833172655297, 1838986784787⟩, ⟨1832475140661, 1833172655298⟩, ⟨1794271516760, 1832475140662⟩, ⟨1741473366900, 1794271516761⟩, ⟨1699098872806, 1741473366901⟩,
  ⟨1681422246011, 1699098872807⟩, ⟨1661522526427, 1681422246012⟩, ⟨1639037353995, 1661522526428⟩, ⟨1630892628580, 1639037353996⟩]

/-- Bounds of the index of `N_SF2` over each interval, in units of 10⁻¹². -/
def index_N_SF2 : List Fx := [
  ⟨1647686080976, 1647686080977⟩, ⟨1632719751120, 1632719751121⟩, ⟨1773195620477, 1797536026857⟩, ⟨1755005932645, 1773195620478⟩, ⟨1729255215937, 1755005932646⟩,
  ⟨1693391698596, 1729255215938⟩, ⟨1684529623546, 1693391698597⟩, ⟨1681862162850, 1684529623547⟩, ⟨1679040881220, 1681862162851⟩, ⟨1676123513777, 1679040881221⟩,
  ⟨1673161634000, 1676123513778⟩, ⟨1669944378498, 1673161634001⟩, ⟨1666588259673, 1669944378499⟩, ⟨1663193698778, 1666588259674⟩, ⟨1659496228954, 1663193698779⟩,
  ⟨1655704598858, 1659496228955⟩, ⟨1651859459841, 1655704598859⟩, ⟨1647841453058, 1651859459842⟩, ⟨1643707404290, 1647841453059⟩, ⟨1639496039447, 1643707404291⟩,
  ⟨1635211983709, 1639496039448⟩, ⟨1634693237421, 1635211983710⟩, ⟨1600075270387, 1634693237422⟩, ⟨1542605017560, 1600075270388⟩, ⟨1493854003516, 1542605017561⟩,
  ⟨1472825219283, 1493854003517⟩, ⟨1448640990032, 1472825219284⟩, ⟨1420636651066, 1448640990033⟩, ⟨1410308720648, 1420636651067⟩]

/-- Bounds of the index of `N_LAK10` over each interval, in units of 10⁻¹². -/
def index_N_LAK10 : List Fx := [
  ⟨1720025209670, 1720025209671⟩, ⟨1708063656271, 1708063656272⟩, ⟨1788896597935, 1796997780090⟩, ⟨1781898347050, 1788896597936⟩, ⟨1770410610549, 1781898347051⟩,
  ⟨1750967720254, 1770410610550⟩, ⟨1745513382817, 1750967720255⟩, ⟨1743820752021, 1745513382818⟩, ⟨1742004913386, 1743820752022⟩, ⟨1740099568354, 1742004913387⟩,
  ⟨1738136383454, 1740099568355⟩, ⟨1735971064837, 1738136383455⟩, ⟨1733675725229, 1735971064838⟩, ⟨1731315905346, 1733675725230⟩, ⟨1728701325759, 1731315905347⟩,
  ⟨1725971332347, 1728701325760⟩, ⟨1723150458599, 1725971332348⟩, ⟨1720142819560, 1723150458600⟩, ⟨1716977247253, 1720142819561⟩, ⟨1713664088904, 1716977247254⟩,
  ⟨1710172745522, 1713664088905⟩, ⟨1709739289807, 1710172745523⟩, ⟨1670231721878, 1709739289808⟩, ⟨1585312908094, 1670231721879⟩, ⟨1500325609662, 1585312908095⟩,
  ⟨1459193658928, 1500325609663⟩, ⟨1407923741485, 1459193658929⟩, ⟨1342381587717, 1407923741486⟩, ⟨1316288266356, 1342381587718⟩]

/-- Bounds of the index of `N_SF57` over each interval, in units of 10⁻¹². -/
def index_N_SF57 : List Fx := [
  ⟨1846653152450, 1846653152451⟩, ⟨1820070260313, 1820070260314⟩, ⟨2126308759361, 2195982227971⟩, ⟨2078319141715, 2126308759362⟩, ⟨2015492538068, 2078319141716⟩,
  ⟨1936338615517, 2015492538069⟩, ⟨1918052252667, 1936338615518⟩, ⟨1912636831176, 1918052252668⟩, ⟨1906952505573, 1912636831177⟩, ⟨1901120745672, 1906952505574⟩,
  ⟨1895247293711, 1901120745673⟩, ⟨1888920657282, 1895247293712⟩, ⟨1882379311885, 1888920657283⟩, ⟨1875823145416, 1882379311886⟩, ⟨1868750547106, 1875823145417⟩,
  ⟨1861572661587, 1868750547107⟩, ⟨1854372700129, 1861572661588⟩, ⟨1846938677981, 1854372700130⟩, ⟨1839395003485, 1846938677982⟩, ⟨1831839399669, 1839395003486⟩,
  ⟨1824328206470, 1831839399670⟩, ⟨1823434034270, 1824328206471⟩, ⟨1777870063509, 1823434034271⟩, ⟨1719098896976, 1777870063510⟩, ⟨1672862072480, 1719098896977⟩,
  ⟨1653793706743, 1672862072481⟩, ⟨1632476962066, 1653793706744⟩, ⟨1608577828802, 1632476962067⟩, ⟨1599969182806, 1608577828803⟩]

/-- Bounds of the index of `S_BAH11` over each interval, in units of 10⁻¹². -/
def index_S_BAH11 : List Fx := [
  ⟨1666715171343, 1666715171344⟩, ⟨1655438233581, 1655438233582⟩, ⟨1736342382677, 1744978185251⟩, ⟨1728976515386, 1736342382678⟩, ⟨1717053380305, 1728976515387⟩,
  ⟨1697278084732, 1717053380306⟩, ⟨1691809973712, 1697278084733⟩, ⟨1690119656675, 1691809973713⟩, ⟨1688309738826, 1690119656676⟩, ⟨1686414434720, 1688309738827⟩,
  ⟨1684465719369, 1686414434721⟩, ⟨1682321277931, 1684465719370⟩, ⟨1680053835888, 1682321277932⟩, ⟨1677729125080, 1680053835889⟩, ⟨1675161517477, 1677729125081⟩,
  ⟨1672490455132, 1675161517478⟩, ⟨1669742513961, 1672490455133⟩, ⟨1666828721276, 1669742513962⟩, ⟨1663784738575, 1666828721277⟩, ⟨1660633280156, 1663784738576⟩,
  ⟨1657369028232, 1660633280157⟩, ⟨1656969249528, 1657369028233⟩, ⟨1627463315000, 1656969249529⟩, ⟨1576315932411, 1627463315001⟩, ⟨1533299410846, 1576315932412⟩,
  ⟨1514866930544, 1533299410847⟩, ⟨1493763069074, 1514866930545⟩, ⟨1469454585061, 1493763069075⟩, ⟨1460525197390, 1469454585062⟩]

/-- Bounds of the index of `S_TIH6` over each interval, in units of 10⁻¹². -/
def index_S_TIH6 : List Fx := [
  ⟨1805174664167, 1805174664168⟩, ⟨1781369260656, 1781369260657⟩, ⟨2040408052167, 2093382202603⟩, ⟨2002497390957, 2040408052168⟩, ⟨1951164738217, 2002497390958⟩,
  ⟨1883986179910, 1951164738218⟩, ⟨1868120175955, 1883986179911⟩, ⟨1863399577408, 1868120175956⟩, ⟨1858434237893, 1863399577409⟩, ⟨1853329386759, 1858434237894⟩,
  ⟨1848177351401, 1853329386760⟩, ⟨1842616127030, 1848177351402⟩, ⟨1836853811371, 1842616127031⟩, ⟨1831066199750, 1836853811372⟩, ⟨1824809347899, 1831066199751⟩,
  ⟨1818445553999, 1824809347900⟩, ⟨1812048497596, 1818445554000⟩, ⟨1805429189708, 1812048497597⟩, ⟨1798697120414, 1805429189709⟩, ⟨1791938061001, 1798697120415⟩,
  ⟨1785199752030, 1791938061002⟩, ⟨1784396077409, 1785199752031⟩, ⟨1742504174262, 1784396077410⟩, ⟨1688205135528, 1742504174263⟩, ⟨1646300964114, 1688205135529⟩,
  ⟨1629232660468, 1646300964115⟩, ⟨1610298398037, 1629232660469⟩, ⟨1589253432442, 1610298398038⟩, ⟨1581720084614, 1589253432443⟩]

/-- Bounds of the index of `N_SF6` over each interval, in units of 10⁻¹². -/
def index_N_SF6 : List Fx := [
  ⟨1717355171532, 1717355171533⟩, ⟨1698762012956, 1698762012957⟩, ⟨1871271223449, 1897815412165⟩, ⟨1850527906293, 1871271223450⟩, ⟨1819956188395, 1850527906294⟩,
  ⟨1775503739026, 1819956188396⟩, ⟨1764286127871, 1775503739027⟩, ⟨1760898010393, 1764286127872⟩, ⟨1757309754749, 1760898010394⟩, ⟨1753594883681, 1757309754750⟩,
  ⟨1749819577724, 1753594883682⟩, ⟨1745715525822, 1749819577725⟩, ⟨1741432060635, 1745715525823⟩, ⟨1737098748147, 1741432060636⟩, ⟨1732380029449, 1737098748148⟩,
  ⟨1727545449775, 1732380029450⟩, ⟨1722651108583, 1727545449776⟩, ⟨1717551926164, 1722651108584⟩, ⟨1712331672679, 1717551926165⟩, ⟨1707058721372, 1712331672680⟩,
  ⟨1701774854986, 1707058721373⟩, ⟨1701143175428, 1701774854987⟩, ⟨1668231189449, 1701143175429⟩, ⟨1622232582455, 1668231189450⟩, ⟨1582475603967, 1622232582456⟩,
  ⟨1565055728734, 1582475603968⟩, ⟨1544814576857, 1565055728735⟩, ⟨1521096206656, 1544814576858⟩, ⟨1512272654498, 1521096206657⟩]

/-- Bounds of the index of `N_SF8` over each interval, in units of 10⁻¹². -/
def index_N_SF8 : List Fx := [
  ⟨1688931688338, 1688931688339⟩, ⟨1671922177097, 1671922177098⟩, ⟨1835928461761, 1864686061089⟩, ⟨1814431932311, 1835928461762⟩, ⟨1784040545881, 1814431932312⟩,
  ⟨1741923775511, 1784040545882⟩, ⟨1731575873827, 1741923775512⟩, ⟨1728466944871, 1731575873828⟩, ⟨1725181822810, 1728466944872⟩, ⟨1721788276528, 1725181822811⟩,
  ⟨1718346690092, 1721788276529⟩, ⟨1714612814461, 1718346690093⟩, ⟨1710722945468, 1714612814462⟩, ⟨1706794181096, 1710722945469⟩, ⟨1702521739973, 1706794181097⟩,
  ⟨1698148581512, 1702521739974⟩, ⟨1693722967454, 1698148581513⟩, ⟨1689109811395, 1693722967455⟩, ⟨1684378145476, 1689109811396⟩, ⟨1679578011787, 1684378145477⟩,
  ⟨1674724934989, 1679578011788⟩, ⟨1674140068411, 1674724934990⟩, ⟨1637935571663, 1674140068412⟩, ⟨1581148914414, 1637935571664⟩, ⟨1533619038699, 1581148914415⟩,
  ⟨1513281265088, 1533619038700⟩, ⟨1490012757480, 1513281265089⟩, ⟨1463230153053, 1490012757481⟩, ⟨1453396501424, 1463230153054⟩]

/-- Bounds of the index of `N_SK2` over each interval, in units of 10⁻¹². -/
def index_N_SK2 : List Fx := [
  ⟨1607378858584, 1607378858585⟩, ⟨1598408145490, 1598408145491⟩, ⟨1657332585717, 1662783660937⟩, ⟨1652534691211, 1657332585718⟩, ⟨1644493492048, 1652534691212⟩,
  ⟨1630472901396, 1644493492049⟩, ⟨1626460022049, 1630472901397⟩, ⟨1625208535624, 1626460022050⟩, ⟨1623862877064, 1625208535625⟩, ⟨1622447593327, 1623862877065⟩,
  ⟨1620985968632, 1622447593328⟩, ⟨1619370078947, 1620985968633⟩, ⟨1617653108494, 1619370078948⟩, ⟨1615883902320, 1617653108495⟩, ⟨1613919460484, 1615883902321⟩,
  ⟨1611864270568, 1613919460485⟩, ⟨1609737375482, 1611864270569⟩, ⟨1607467625997, 1609737375483⟩, ⟨1605079202855, 1607467625998⟩, ⟨1602584973251, 1605079202856⟩,
  ⟨1599972219985, 1602584973252⟩, ⟨1599649677248, 1599972219986⟩, ⟨1573378410475, 1599649677249⟩, ⟨1524094906509, 1573378410476⟩, ⟨1480726355856, 1524094906510⟩,
  ⟨1461588285279, 1480726355857⟩, ⟨1439251269921, 1461588285280⟩, ⟨1412940490545, 1439251269922⟩, ⟨1403114433675, 1412940490546⟩]

/-- Bounds of the index of `S_PHM52` over each interval, in units of 10⁻¹². -/
def index_S_PHM52 : List Fx := [
  ⟨1617997985411, 1617997985412⟩, ⟨1609769702537, 1609769702538⟩, ⟨1662475808093, 1667316070382⟩, ⟨1658308049529, 1662602555517⟩, ⟨1651208522949, 1658473273756⟩,
  ⟨1638661342786, 1651508545890⟩, ⟨1635201901984, 1638916367794⟩, ⟨1634117921417, 1635279433104⟩, ⟨1632906189958, 1634156687789⟩, ⟨1631630749908, 1632947684661⟩,
  ⟨1630312409096, 1631674292469⟩, ⟨1628851593463, 1630359328917⟩, ⟨1627298352357, 1628902781071⟩, ⟨1625696542607, 1627352289311⟩, ⟨1623913344780, 1625754725561⟩,
  ⟨1622046713014, 1623976390954⟩, ⟨1620112192501, 1622112651748⟩, ⟨1618042973828, 1620181706582⟩, ⟨1615861407454, 1618116496360⟩, ⟨1613577274268, 1615937689428⟩,
  ⟨1611175321455, 1613654924296⟩, ⟨1610912280113, 1611218971426⟩, ⟨1585735126473, 1611043673547⟩, ⟨1539710090015, 1585872232872⟩, ⟨1500938738865, 1539720087808⟩,
  ⟨1484349909454, 1500940521565⟩, ⟨1465377494360, 1484350540804⟩, ⟨1443554559584, 1465378042376⟩, ⟨1435546886754, 1443554894726⟩]

/-- Bounds of the index of `S_NPH2` over each interval, in units of 10⁻¹². -/
def index_S_NPH2 : List Fx := [
  ⟨1922850364743, 1922850364744⟩, ⟨1887369744409, 1887369744410⟩, ⟨2474938062649, 2750477034285⟩, ⟨2337143855669, 2474938062650⟩, ⟨2194916436690, 2337143855670⟩,
  ⟨2053914491969, 2194916436691⟩, ⟨2025333213910, 2053914491970⟩, ⟨2017085925052, 2025333213911⟩, ⟨2008527474515, 2017085925053⟩, ⟨1999846952380, 2008527474516⟩,
  ⟨1991201803036, 1999846952381⟩, ⟨1981993579380, 1991201803037⟩, ⟨1972580354265, 1981993579381⟩, ⟨1963249525687, 1972580354266⟩, ⟨1953293547983, 1963249525688⟩,
  ⟨1943299091679, 1953293547984⟩, ⟨1933378238678, 1943299091680⟩, ⟨1923237837727, 1933378238679⟩, ⟨1913048323591, 1923237837728⟩, ⟨1902938236427, 1913048323592⟩,
  ⟨1892977585077, 1902938236428⟩, ⟨1891797631990, 1892977585078⟩, ⟨1833009675408, 1891797631991⟩, ⟨1757530479579, 1833009675409⟩, ⟨1697518745029, 1757530479580⟩,
  ⟨1672590770342, 1697518745030⟩, ⟨1644592620220, 1672590770343⟩, ⟨1613031085711, 1644592620221⟩, ⟨1601616273524, 1613031085712⟩]

/-- Bounds of the index of `N_PK52A` over each interval, in units of 10⁻¹². -/
def index_N_PK52A : List Fx := [
  ⟨1496998864342, 1496998864343⟩, ⟨1491804491851, 1491804491852⟩, ⟨1524021226618, 1526793902074⟩, ⟨1521551426440, 1524021226619⟩, ⟨1517351245902, 1521551426441⟩,
  ⟨1509848977951, 1517351245903⟩, ⟨1507660503391, 1509848977952⟩, ⟨1506974256732, 1507660503392⟩, ⟨1506234389138, 1506974256733⟩, ⟨1505454020227, 1506234389139⟩,
  ⟨1504645703171, 1505454020228⟩, ⟨1503749225904, 1504645703172⟩, ⟨1502793369168, 1503749225905⟩, ⟨1501804834545, 1502793369169⟩, ⟨1500702862022, 1501804834546⟩,
  ⟨1499544956012, 1500702862023⟩, ⟨1498341022380, 1499544956013⟩, ⟨1497049522019, 1498341022381⟩, ⟨1495682296262, 1497049522020⟩, ⟨1494244139087, 1495682296263⟩,
  ⟨1492723552572, 1494244139088⟩, ⟨1492534627831, 1492723552573⟩, ⟨1476259729440, 1492534627832⟩, ⟨1446529213373, 1476259729441⟩, ⟨1422098120084, 1446529213374⟩,
  ⟨1411801176598, 1422098120085⟩, ⟨1400139102364, 1411801176599⟩, ⟨1386874616367, 1400139102365⟩, ⟨1382047410900, 1386874616368⟩]

/-- Bounds of the index of `H_LAF3B` over each interval, in units of 10⁻¹². -/
def index_H_LAF3B : List Fx := [
  ⟨1743996662325, 1743996662326⟩, ⟨1730660131733, 1730660131734⟩, ⟨1828064632581, 1838323895601⟩, ⟨1819253317619, 1828064632582⟩, ⟨1804900104714, 1819253317620⟩,
  ⟨1780951318929, 1804900104715⟩, ⟨1774318427693, 1780951318930⟩, ⟨1772268415257, 1774318427694⟩, ⟨1770073781845, 1772268415258⟩, ⟨1767776258227, 1770073781846⟩,
  ⟨1765414875298, 1767776258228⟩, ⟨1762817620926, 1765414875299⟩, ⟨1760073227292, 1762817620927⟩, ⟨1757261921428, 1760073227293⟩, ⟨1754160360258, 1757261921429⟩,
  ⟨1750938662344, 1754160360259⟩, ⟨1747630775616, 1750938662345⟩, ⟨1744132739051, 1747630775617⟩, ⟨1740492736683, 1744132739052⟩, ⟨1736746751382, 1740492736684⟩,
  ⟨1732904695162, 1736746751383⟩, ⟨1732437891889, 1732904695163⟩, ⟨1702124848576, 1732437891890⟩, ⟨1653038231884, 1702124848577⟩, ⟨1611399763309, 1653038231885⟩,
  ⟨1593435741606, 1611399763310⟩, ⟨1572776648292, 1593435741607⟩, ⟨1548858671748, 1572776648293⟩, ⟨1540039905508, 1548858671749⟩]

/-- Bounds of the index of `H_ZF52GT` over each interval, in units of 10⁻¹². -/
def index_H_ZF52GT : List Fx := [
  ⟨1846653263495, 1846653263496⟩, ⟨1820075837809, 1820075837810⟩, ⟨2118998530187, 2182518839046⟩, ⟨2074021298086, 2118998530188⟩, ⟨2013767306970, 2074021298087⟩,
  ⟨1936067462319, 2013767306971⟩, ⟨1917912653140, 1936067462320⟩, ⟨1912525784955, 1917912653141⟩, ⟨1906866955363, 1912525784956⟩, ⟨1901056983108, 1906866955364⟩,
  ⟨1895201414788, 1901056983109⟩, ⟨1888889963372, 1895201414789⟩, ⟨1882360410515, 1888889963373⟩, ⟨1875812642927, 1882360410516⟩, ⟨1868745919297, 1875812642928⟩,
  ⟨1861571324958, 1868745919298⟩, ⟨1854372700982, 1861571324959⟩, ⟨1846938798501, 1854372700983⟩, ⟨1839394830949, 1846938798502⟩, ⟨1831839568522, 1839394830950⟩,
  ⟨1824330741137, 1831839568523⟩, ⟨1823437077428, 1824330741138⟩, ⟨1778164791962, 1823437077429⟩, ⟨1720399451456, 1778164791963⟩, ⟨1675284958254, 1720399451457⟩,
  ⟨1656762635024, 1675284958255⟩, ⟨1636113733418, 1656762635025⟩, ⟨1613035460129, 1636113733419⟩, ⟨1604741190535, 1613035460130⟩]

/-- Bounds of the index of `H_ZF13` over each interval, in units of 10⁻¹². -/
def index_H_ZF13 : List Fx := [
  ⟨1784714168379, 1784714168380⟩, ⟨1761726469195, 1761726469196⟩, ⟨2012895593823, 2065423963153⟩, ⟨1975650713213, 2012895593824⟩, ⟨1925610166264, 1975650713214⟩,
  ⟨1860626617410, 1925610166265⟩, ⟨1845332791561, 1860626617411⟩, ⟨1840784803800, 1845332791562⟩, ⟨1836001952206, 1840784803801⟩, ⟨1831085552068, 1836001952207⟩,
  ⟨1826124399022, 1831085552069⟩, ⟨1820769789126, 1826124399023⟩, ⟨1815221939379, 1820769789127⟩, ⟨1809649845237, 1815221939380⟩, ⟨1803625746854, 1809649845238⟩,
  ⟨1797497972664, 1803625746855⟩, ⟨1791336855876, 1797497972665⟩, ⟨1784959452868, 1791336855877⟩, ⟨1778469754400, 1784959452869⟩, ⟨1771948049318, 1778469754401⟩,
  ⟨1765436060428, 1771948049319⟩, ⟨1764658339877, 1765436060429⟩, ⟨1722899490137, 1764658339878⟩, ⟨1666524512685, 1722899490138⟩, ⟨1622163319102, 1666524512686⟩,
  ⟨1603882713137, 1622163319103⟩, ⟨1583457870539, 1603882713138⟩, ⟨1560573472194, 1583457870540⟩, ⟨1552334273999, 1560573472195⟩]

/-- Bounds of the index of `H_ZK50` over each interval, in units of 10⁻¹². -/
def index_H_ZK50 : List Fx := [
  ⟨1607377885521, 1607377885522⟩, ⟨1598409642882, 1598409642883⟩, ⟨1657018023783, 1662763159710⟩, ⟨1652289816478, 1657376542874⟩, ⟨1644176126023, 1652758529826⟩,
  ⟨1629922333528, 1645030980441⟩, ⟨1626299802761, 1630651564098⟩, ⟨1625163038119, 1626522256703⟩, ⟨1623811911749, 1625274404936⟩, ⟨1622391984720, 1623931197887⟩,
  ⟨1620926582023, 1622517248347⟩, ⟨1619301968776, 1621061666485⟩, ⟨1617578500041, 1619449462351⟩, ⟨1615805055117, 1617734053200⟩, ⟨1613830058177, 1615973014581⟩,
  ⟨1611769394030, 1614012240430⟩, ⟨1609638542961, 1611960140619⟩, ⟨1607362488130, 1609839861343⟩, ⟨1604970118516, 1607575668651⟩, ⟨1602474145734, 1605191574986⟩,
  ⟨1599861063612, 1602699861053⟩, ⟨1599638445636, 1599988048484⟩, ⟨1572645431123, 1600021598310⟩, ⟨1522669546069, 1573045823642⟩, ⟨1478368058131, 1522698883474⟩,
  ⟨1458803259975, 1478373311039⟩, ⟨1435957254763, 1458805124468⟩, ⟨1409036383742, 1435958877906⟩, ⟨1398979934559, 1409037380288⟩]

/-- Bounds of the index of `H_F4` over each interval, in units of 10⁻¹². -/
def index_H_F4 : List Fx := [
  ⟨1620046739857, 1620046739858⟩, ⟨1606565234453, 1606565234454⟩, ⟨1727533826691, 1747418852764⟩, ⟨1712488680236, 1727533826692⟩, ⟨1690899193224, 1712488680237⟩,
  ⟨1660224004763, 1690899193225⟩, ⟨1652530629229, 1660224004764⟩, ⟨1650206011820, 1652530629230⟩, ⟨1647742831167, 1650206011821⟩, ⟨1645190870763, 1647742831168⟩,
  ⟨1642594872155, 1645190870764⟩, ⟨1639769197052, 1642594872156⟩, ⟨1636815032182, 1639769197053⟩, ⟨1633820186619, 1636815032183⟩, ⟨1630550156856, 1633820186620⟩,
  ⟨1627188050941, 1630550156857⟩, ⟨1623769051693, 1627188050942⟩, ⟨1620185545095, 1623769051694⟩, ⟨1616485820405, 1620185545096⟩, ⟨1612701269579, 1616485820406⟩,
  ⟨1608830391482, 1612701269580⟩, ⟨1608359846489, 1608830391483⟩, ⟨1575262039765, 1608359846490⟩, ⟨1517765922214, 1575262039766⟩, ⟨1467878109810, 1517765922215⟩,
  ⟨1446042638016, 1467878109811⟩, ⟨1420689695537, 1446042638017⟩, ⟨1391003315325, 1420689695538⟩, ⟨1379964325357, 1391003315326⟩]

/-- Bounds of the index of `N_BAK1` over each interval, in units of 10⁻¹². -/
def index_N_BAK1 : List Fx := [
  ⟨1572498162047, 1572498162048⟩, ⟨1564156055863, 1564156055864⟩, ⟨1618746919129, 1623776885844⟩, ⟨1614315719674, 1618746919130⟩, ⟨1606882079484, 1614315719675⟩,
  ⟨1593904824746, 1606882079485⟩, ⟨1590187767246, 1593904824747⟩, ⟨1589028330292, 1590187767247⟩, ⟨1587781542313, 1589028330293⟩, ⟨1586470128564, 1587781542314⟩,
  ⟨1585115650234, 1586470128565⟩, ⟨1583618066122, 1585115650235⟩, ⟨1582026623392, 1583618066123⟩, ⟨1580386557916, 1582026623393⟩, ⟨1578565233765, 1580386557917⟩,
  ⟨1576659409061, 1578565233766⟩, ⟨1574686599369, 1576659409062⟩, ⟨1572580546793, 1574686599370⟩, ⟨1570363198312, 1572580546794⟩, ⟨1568045625196, 1570363198313⟩,
  ⟨1565614308811, 1568045625197⟩, ⟨1565313795562, 1565614308812⟩, ⟨1540356766509, 1565313795563⟩, ⟨1492837652721, 1540356766510⟩, ⟨1450671922058, 1492837652722⟩,
  ⟨1431962248865, 1450671922059⟩, ⟨1410045606693, 1431962248866⟩, ⟨1384119359957, 1410045606694⟩, ⟨1374406049529, 1384119359958⟩]

/-- The bounds of each glass. -/
def indexRows : List (String × List Fx) := [
  ("N_BAK4", index_N_BAK4),
  ("SF5", index_SF5),
  ("N_BAF10", index_N_BAF10),
  ("N_SF6HT", index_N_SF6HT),
  ("N_SF11", index_N_SF11),
  ("N_BK7", index_N_BK7),
  ("N_SF10", index_N_SF10),
  ("E_BAF11", index_E_BAF11),
  ("E_FD10", index_E_FD10),
  ("N_SF5", index_N_SF5),
  ("N_SSK5", index_N_SSK5),
  ("LAFN7", index_LAFN7),
  ("SF2", index_SF2),
  ("N_LAK22", index_N_LAK22),
  ("N_SK16", index_N_SK16),
  ("N_LASF9", index_N_LASF9),
  ("N_SF2", index_N_SF2),
  ("N_LAK10", index_N_LAK10),
  ("N_SF57", index_N_SF57),
  ("S_BAH11", index_S_BAH11),
  ("S_TIH6", index_S_TIH6),
  ("N_SF6", index_N_SF6),
  ("N_SF8", index_N_SF8),
  ("N_SK2", index_N_SK2),
  ("S_PHM52", index_S_PHM52),
  ("S_NPH2", index_S_NPH2),
  ("N_PK52A", index_N_PK52A),
  ("H_LAF3B", index_H_LAF3B),
  ("H_ZF52GT", index_H_ZF52GT),
  ("H_ZF13", index_H_ZF13),
  ("H_ZK50", index_H_ZK50),
  ("H_F4", index_H_F4),
  ("N_BAK1", index_N_BAK1)]

end RT
