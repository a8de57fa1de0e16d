import Verif.Lemmas.Fixed

/-! # Finer bounds of the indices of the glasses of three doublets

For the doublets of the catalogues whose two glasses have close indices. Numbers computed outside Lean; `apartRows_ok` of
`Verif.Lemmas.FloatLensCheck` checks every one of them against the formulas of the glasses. -/

namespace RT

/-- Intervals of wavelengths from 0.3 to 2.5 microns. -/
def apartCells : List (ℚ × ℚ) := [
  (3/10, 31/100), (31/100, 8/25), (8/25, 33/100), (33/100, 69/200), (69/200, 9/25), (9/25, 37/100), (37/100, 19/50), (19/50, 2/5), (2/5, 407/1000),
  (407/1000, 83/200), (83/200, 53/125), (53/125, 217/500), (217/500, 223/500), (223/500, 23/50), (23/50, 119/250), (119/250, 62/125),
  (62/125, 13/25), (13/25, 549/1000), (549/1000, 293/500), (293/500, 317/500), (317/500, 349/500), (349/500, 787/1000), (787/1000, 4/5),
  (4/5, 17/20), (17/20, 9/10), (9/10, 1), (1, 11/10), (11/10, 6/5), (6/5, 13/10), (13/10, 7/5), (7/5, 3/2), (3/2, 8/5), (8/5, 17/10), (17/10, 9/5),
  (9/5, 19/10), (19/10, 2), (2, 21/10), (21/10, 11/5), (11/5, 23/10), (23/10, 12/5), (12/5, 5/2)]

/-- Bounds of the index of `N_SF10` over each of them, in units of 10⁻¹². -/
def apart_N_SF10 : List Fx := [
  ⟨1879116631118, 1906170232758⟩, ⟨1858227181001, 1879116631119⟩, ⟨1841514919226, 1858227181002⟩, ⟨1821787832068, 1841514919227⟩,
  ⟨1806457445793, 1821787832069⟩, ⟨1797980977056, 1806457445794⟩, ⟨1790578894841, 1797980977057⟩, ⟨1778259755055, 1790578894842⟩,
  ⟨1774573035067, 1778259755056⟩, ⟨1770684558444, 1774573035068⟩, ⟨1766675458587, 1770684558445⟩, ⟨1762617586110, 1766675458588⟩,
  ⟨1758224163621, 1762617586111⟩, ⟨1753657262023, 1758224163622⟩, ⟨1749055194783, 1753657262024⟩, ⟨1744062702857, 1749055194784⟩,
  ⟨1738965984104, 1744062702858⟩, ⟨1733822653229, 1738965984105⟩, ⟨1728478161334, 1733822653230⟩, ⟨1723016581543, 1728478161335⟩,
  ⟨1717501609141, 1723016581544⟩, ⟨1711961734399, 1717501609142⟩, ⟨1711297333147, 1711961734400⟩, ⟨1708996473192, 1711297333148⟩,
  ⟨1707025674802, 1708996473193⟩, ⟨1703790425878, 1707025674803⟩, ⟨1701188602595, 1703790425879⟩, ⟨1698986172810, 1701188602596⟩,
  ⟨1697039023171, 1698986172811⟩, ⟨1695254112706, 1697039023172⟩, ⟨1693568951086, 1695254112707⟩, ⟨1691940112151, 1693568951087⟩,
  ⟨1690336491107, 1691940112152⟩, ⟨1688735184624, 1690336491108⟩, ⟨1687118885770, 1688735184625⟩, ⟨1685474187038, 1687118885771⟩,
  ⟨1683790445552, 1685474187039⟩, ⟨1682059006273, 1683790445553⟩, ⟨1680272658900, 1682059006274⟩, ⟨1678425250727, 1680272658901⟩,
  ⟨1676511405628, 1678425250728⟩]

/-- Bounds of the index of `N_SF6` over each of them, in units of 10⁻¹². -/
def apart_N_SF6 : List Fx := [
  ⟨1850527906293, 1871271223450⟩, ⟨1833790944053, 1850527906294⟩, ⟨1819956188395, 1833790944054⟩, ⟨1803133626288, 1819956188396⟩,
  ⟨1789709776553, 1803133626289⟩, ⟨1782162949065, 1789709776554⟩, ⟨1775503739026, 1782162949066⟩, ⟨1764286127871, 1775503739027⟩,
  ⟨1760898010393, 1764286127872⟩, ⟨1757309754749, 1760898010394⟩, ⟨1753594883681, 1757309754750⟩, ⟨1749819577724, 1753594883682⟩,
  ⟨1745715525822, 1749819577725⟩, ⟨1741432060635, 1745715525823⟩, ⟨1737098748147, 1741432060636⟩, ⟨1732380029449, 1737098748148⟩,
  ⟨1727545449775, 1732380029450⟩, ⟨1722651108583, 1727545449776⟩, ⟨1717551926164, 1722651108584⟩, ⟨1712331672679, 1717551926165⟩,
  ⟨1707058721372, 1712331672680⟩, ⟨1701774854986, 1707058721373⟩, ⟨1701143175428, 1701774854987⟩, ⟨1698961124749, 1701143175429⟩,
  ⟨1697101038412, 1698961124750⟩, ⟨1694074008232, 1697101038413⟩, ⟨1691673916920, 1694074008233⟩, ⟨1689674547688, 1691673916921⟩,
  ⟨1687936257810, 1689674547689⟩, ⟨1686368728455, 1687936257811⟩, ⟨1684911210859, 1686368728456⟩, ⟨1683521438352, 1684911210860⟩,
  ⟨1682169103319, 1683521438353⟩, ⟨1680831864621, 1682169103320⟩, ⟨1679492819358, 1680831864622⟩, ⟨1678138853784, 1679492819359⟩,
  ⟨1676759539169, 1678138853785⟩, ⟨1675346374984, 1676759539170⟩, ⟨1673892258978, 1675346374985⟩, ⟨1672391108713, 1673892258979⟩,
  ⟨1670837586183, 1672391108714⟩]

/-- Bounds of the index of `H_LAF3B` over each of them, in units of 10⁻¹². -/
def apart_H_LAF3B : List Fx := [
  ⟨1819253317619, 1828064632582⟩, ⟨1811603155122, 1819253317620⟩, ⟨1804900104714, 1811603155123⟩, ⟨1796273899119, 1804900104715⟩,
  ⟨1789009766253, 1796273899120⟩, ⟨1784776354674, 1789009766254⟩, ⟨1780951318929, 1784776354675⟩, ⟨1774318427693, 1780951318930⟩,
  ⟨1772268415257, 1774318427694⟩, ⟨1770073781845, 1772268415258⟩, ⟨1767776258227, 1770073781846⟩, ⟨1765414875298, 1767776258228⟩,
  ⟨1762817620926, 1765414875299⟩, ⟨1760073227292, 1762817620927⟩, ⟨1757261921428, 1760073227293⟩, ⟨1754160360258, 1757261921429⟩,
  ⟨1750938662344, 1754160360259⟩, ⟨1747630775616, 1750938662345⟩, ⟨1744132739051, 1747630775617⟩, ⟨1740492736683, 1744132739052⟩,
  ⟨1736746751382, 1740492736684⟩, ⟨1732904695162, 1736746751383⟩, ⟨1732437891889, 1732904695163⟩, ⟨1730809988494, 1732437891890⟩,
  ⟨1729400207974, 1730809988495⟩, ⟨1727049458611, 1729400207975⟩, ⟨1725119207563, 1727049458612⟩, ⟨1723452074292, 1725119207564⟩,
  ⟨1721949913045, 1723452074293⟩, ⟨1720548711580, 1721949913046⟩, ⟨1719205091047, 1720548711581⟩, ⟨1717888647215, 1719205091048⟩,
  ⟨1716577407370, 1717888647216⟩, ⟨1715255031149, 1716577407371⟩, ⟨1713909028379, 1715255031150⟩, ⟨1712529591287, 1713909028380⟩,
  ⟨1711108809493, 1712529591288⟩, ⟨1709640129967, 1711108809494⟩, ⟨1708117977575, 1709640129968⟩, ⟨1706537483125, 1708117977576⟩,
  ⟨1704894284731, 1706537483126⟩]

/-- Bounds of the index of `H_ZF13` over each of them, in units of 10⁻¹². -/
def apart_H_ZF13 : List Fx := [
  ⟨1975650713213, 2012895593824⟩, ⟨1947615717218, 1975650713214⟩, ⟨1925610166264, 1947615717219⟩, ⟨1900087532320, 1925610166265⟩,
  ⟨1880569962553, 1900087532321⟩, ⟨1869890301487, 1880569962554⟩, ⟨1860626617410, 1869890301488⟩, ⟨1845332791561, 1860626617411⟩,
  ⟨1840784803800, 1845332791562⟩, ⟨1836001952206, 1840784803801⟩, ⟨1831085552068, 1836001952207⟩, ⟨1826124399022, 1831085552069⟩,
  ⟨1820769789126, 1826124399023⟩, ⟨1815221939379, 1820769789127⟩, ⟨1809649845237, 1815221939380⟩, ⟨1803625746854, 1809649845238⟩,
  ⟨1797497972664, 1803625746855⟩, ⟨1791336855876, 1797497972665⟩, ⟨1784959452868, 1791336855877⟩, ⟨1778469754400, 1784959452869⟩,
  ⟨1771948049318, 1778469754401⟩, ⟨1765436060428, 1771948049319⟩, ⟨1764658339877, 1765436060429⟩, ⟨1761971688527, 1764658339878⟩,
  ⟨1759679906375, 1761971688528⟩, ⟨1755941777569, 1759679906376⟩, ⟨1752963513226, 1755941777570⟩, ⟨1750467101790, 1752963513227⟩,
  ⟨1748281846460, 1750467101791⟩, ⟨1746297835697, 1748281846461⟩, ⟨1744441448600, 1746297835698⟩, ⟨1742661681415, 1744441448601⟩,
  ⟨1740922137948, 1742661681416⟩, ⟨1739196144198, 1740922137949⟩, ⟨1737463663924, 1739196144199⟩, ⟨1735709292159, 1737463663925⟩,
  ⟨1733920915262, 1735709292160⟩, ⟨1732088795002, 1733920915263⟩, ⟨1730204929270, 1732088795003⟩, ⟨1728262597288, 1730204929271⟩,
  ⟨1726256030383, 1728262597289⟩]

/-- Bounds of the index of `H_ZK50` over each of them, in units of 10⁻¹². -/
def apart_H_ZK50 : List Fx := [
  ⟨1652289816478, 1657376542874⟩, ⟨1648087367165, 1652616506460⟩, ⟨1644332552730, 1648385822824⟩, ⟨1639336327174, 1644667052697⟩,
  ⟨1635110968888, 1639697961404⟩, ⟨1632669028978, 1635382768684⟩, ⟨1630388439185, 1632865667867⟩, ⟨1626299802761, 1630651564098⟩,
  ⟨1625163038119, 1626522256703⟩, ⟨1623811911749, 1625274404936⟩, ⟨1622391984720, 1623931197887⟩, ⟨1620926582023, 1622517248347⟩,
  ⟨1619301968776, 1621061666485⟩, ⟨1617578500041, 1619449462351⟩, ⟨1615805055117, 1617734053200⟩, ⟨1613830058177, 1615973014581⟩,
  ⟨1611769394030, 1614012240430⟩, ⟨1609638542961, 1611960140619⟩, ⟨1607362488130, 1609839861343⟩, ⟨1604970118516, 1607575668651⟩,
  ⟨1602474145734, 1605191574986⟩, ⟨1599861063612, 1602699861053⟩, ⟨1599638445636, 1599988048484⟩, ⟨1598468954838, 1599698247571⟩,
  ⟨1597474701973, 1598554143005⟩, ⟨1595735473959, 1597574617427⟩, ⟨1594284933745, 1595841824207⟩, ⟨1592978506923, 1594364686031⟩,
  ⟨1591754359004, 1593039856415⟩, ⟨1590571780465, 1591802569353⟩, ⟨1589402901290, 1590610358394⟩, ⟨1588227952649, 1589434256410⟩,
  ⟨1587032437646, 1588253785173⟩, ⟨1585805378315, 1587053975126⟩, ⟨1584538193844, 1585823525046⟩, ⟨1583223961954, 1584553627926⟩,
  ⟨1581856919851, 1583237199969⟩, ⟨1580432118970, 1581868360940⟩, ⟨1578945180722, 1580442075488⟩, ⟨1577392119919, 1578953899943⟩,
  ⟨1575769214357, 1577399799664⟩]

/-- Bounds of the index of `H_F4` over each of them, in units of 10⁻¹². -/
def apart_H_F4 : List Fx := [
  ⟨1712488680236, 1727533826692⟩, ⟨1700597409161, 1712488680237⟩, ⟨1690899193224, 1700597409162⟩, ⟨1679226259913, 1690899193225⟩,
  ⟨1669976970532, 1679226259914⟩, ⟨1664792959004, 1669976970533⟩, ⟨1660224004763, 1664792959005⟩, ⟨1652530629229, 1660224004764⟩,
  ⟨1650206011820, 1652530629230⟩, ⟨1647742831167, 1650206011821⟩, ⟨1645190870763, 1647742831168⟩, ⟨1642594872155, 1645190870764⟩,
  ⟨1639769197052, 1642594872156⟩, ⟨1636815032182, 1639769197053⟩, ⟨1633820186619, 1636815032183⟩, ⟨1630550156856, 1633820186620⟩,
  ⟨1627188050941, 1630550156857⟩, ⟨1623769051693, 1627188050942⟩, ⟨1620185545095, 1623769051694⟩, ⟨1616485820405, 1620185545096⟩,
  ⟨1612701269579, 1616485820406⟩, ⟨1608830391482, 1612701269580⟩, ⟨1608359846489, 1608830391483⟩, ⟨1606716726924, 1608359846490⟩,
  ⟨1605289314666, 1606716726925⟩, ⟨1602893191060, 1605289314667⟩, ⟨1600902693263, 1602893191061⟩, ⟨1599160531074, 1600902693264⟩,
  ⟨1597569206404, 1599160531075⟩, ⟨1596065363209, 1597569206405⟩, ⟨1594606141665, 1596065363210⟩, ⟨1593161498424, 1594606141666⟩,
  ⟨1591709678485, 1593161498425⟩, ⟨1590234438108, 1591709678486⟩, ⟨1588723282933, 1590234438109⟩, ⟨1587166316519, 1588723282934⟩,
  ⟨1585555467698, 1587166316520⟩, ⟨1583883959568, 1585555467699⟩, ⟨1582145936396, 1583883959569⟩, ⟨1580336195950, 1582145936397⟩,
  ⟨1578449993515, 1580336195951⟩]

/-- The pairs of glasses. -/
def apartRows : List ((String × List Fx) × (String × List Fx)) := [
  (("N_SF10", apart_N_SF10), ("N_SF6", apart_N_SF6)),
  (("H_LAF3B", apart_H_LAF3B), ("H_ZF13", apart_H_ZF13)),
  (("H_ZK50", apart_H_ZK50), ("H_F4", apart_H_F4))]

end RT
