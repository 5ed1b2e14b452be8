import Verif.Model.Stations.Rows

/-
Rows of `STATIONS` (database/stations.py). Generated by tools/stations2lean.py.
-/

namespace Verif

/-- `STATIONS` (database/stations.py 1017-1116). -/
noncomputable def stations10 : List StationRow := rows! [
  ["IA WEBSTER CITY", "KEBS", "EBS", "None", "42.25N", "093.52W", "342", "US"],
  ["IA LAMONI", "K0Y7", "0Y7", "None", "40.38N", "093.54W", "346", "US"],
  ["IA LAMONI", "K3OI", "3OI", "None", "40.37N", "093.57W", "342", "US"],
  ["IA SPENCER", "K3SE", "3SE", "None", "43.10N", "095.09W", "404", "US"],
  ["IA ADAIR I80", "XADA", "None", "None", "41.29N", "094.43W", "450", "US"],
  ["IA ALGONA US18", "XALG", "None", "None", "43.05N", "094.23W", "337", "US"],
  ["IA ALTON IA10", "XATN", "None", "None", "42.49N", "096.05W", "430", "US"],
  ["IA ALTOONA I80/US65", "XALT", "None", "None", "41.40N", "093.31W", "262", "US"],
  ["IA AMES I35", "XAME", "None", "None", "42.02N", "093.34W", "313", "US"],
  ["IA ANKENY I35", "XANK", "None", "None", "41.46N", "093.34W", "264", "US"],
  ["IA AVOCA I80", "XAVO", "None", "None", "41.29N", "095.17W", "377", "US"],
  ["IA BURLINGTON US34", "XBUR", "None", "None", "40.49N", "091.05W", "218", "US"],
  ["IA CARROLL US30", "XCAR", "None", "None", "42.05N", "094.53W", "389", "US"],
  ["IA CEDAR RAPIDS 380", "XCDR", "None", "None", "41.49N", "091.40W", "236", "US"],
  ["IA CEDAR RAPID US30", "XCID", "None", "None", "41.56N", "091.41W", "246", "US"],
  ["IA CENTERVILLE IA2", "XCEN", "None", "None", "40.44N", "093.00W", "295", "US"],
  ["IA COUNCIL BLUFF 80", "XCOU", "None", "None", "41.14N", "095.52W", "268", "US"],
  ["IA CRESTON US34", "XCRE", "None", "None", "41.04N", "094.18W", "388", "US"],
  ["IA DAVENPORT 80/280", "XDAV", "None", "None", "41.36N", "090.41W", "206", "US"],
  ["IA DECORAH IA9", "XDEC", "None", "None", "43.14N", "091.41W", "310", "US"],
  ["IA DES MOINES I35", "XDSM", "None", "None", "41.32N", "093.46W", "224", "US"],
  ["IA DES MOINES I235", "XDES", "None", "None", "41.35N", "093.37W", "281", "US"],
  ["IA DE SOTO 80/US169", "XDST", "None", "None", "41.32N", "094.06W", "291", "US"],
  ["IA DE WITT US30/61", "XDEW", "None", "None", "41.50N", "090.34W", "240", "US"],
  ["IA DUBUQUE US20", "XDUB", "None", "None", "42.29N", "090.44W", "250", "US"],
  ["IA FORT DODGE US20", "XFOD", "None", "None", "42.26N", "094.11W", "286", "US"],
  ["IA GRINNELL I80", "XGRI", "None", "None", "41.41N", "092.44W", "281", "US"],
  ["IA IOWA CITY US218", "XIAC", "None", "None", "41.38N", "091.35W", "254", "US"],
  ["IA IOWA CITY I80", "XIOW", "None", "None", "41.41N", "091.35W", "250", "US"],
  ["IA JEFFERSON IA4", "XJEF", "None", "None", "42.03N", "094.23W", "310", "US"],
  ["IA LEON I35/IA2", "XLEO", "None", "None", "40.44N", "093.50W", "349", "US"],
  ["IA MANCHESTER US20", "XMAN", "None", "None", "42.26N", "091.26W", "309", "US"],
  ["IA MAQUOKETA 61/64", "XMAQ", "None", "None", "42.04N", "090.41W", "251", "US"],
  ["IA MARSHALTOWN US30", "XMAR", "None", "None", "42.01N", "092.58W", "291", "US"],
  ["IA MASON CITY I35", "XMCW", "None", "None", "43.02N", "093.20W", "376", "US"],
  ["IA MISSOURI VAL I29", "XMIS", "None", "None", "41.32N", "095.55W", "309", "US"],
  ["IA MT PLEASANT U218", "XMOU", "None", "None", "40.53N", "091.33W", "133", "US"],
  ["IA NEW HAMPTON US18", "XNEW", "None", "None", "43.02N", "092.28W", "327", "US"],
  ["IA ONAWA I29", "XONA", "None", "None", "41.52N", "096.01W", "303", "US"],
  ["IA OSCEOLA I35", "XOSC", "None", "None", "41.02N", "093.47W", "334", "US"],
  ["IA OTTUMWA US63", "XOTT", "None", "None", "41.01N", "092.25W", "196", "US"],
  ["IA PELLA IA163", "XPEL", "None", "None", "41.23N", "092.52W", "271", "US"],
  ["IA RED OAK US34/71", "XRED", "None", "None", "40.59N", "094.59W", "290", "US"],
  ["IA SIDNEY I29/IA2", "XSID", "None", "None", "40.41N", "095.47W", "287", "US"],
  ["IA SIGOURNEY IA92", "XSIG", "None", "None", "41.20N", "092.19W", "202", "US"],
  ["IA SIOUX CITY I29", "XSIO", "None", "None", "42.29N", "096.23W", "364", "US"],
  ["IA SPENCER US18", "XSPE", "None", "None", "43.08N", "095.05W", "452", "US"],
  ["IA STORM LAKE 71/3", "XSTO", "None", "None", "42.44N", "095.09W", "405", "US"],
  ["IA TIPTON I80", "XTIP", "None", "None", "41.38N", "091.08W", "236", "US"],
  ["IA URBANA I380", "XURB", "None", "None", "42.19N", "091.59W", "302", "US"],
  ["IA WATERLOO US20", "XWAT", "None", "None", "42.27N", "092.19W", "269", "US"],
  ["IA WILLIAMS I35", "XWIL", "None", "None", "42.32N", "093.34W", "325", "US"],
  ["IA WILLAIMSBURG I80", "XWBG", "None", "None", "41.41N", "092.01W", "260", "US"],
  ["IA HANLONTOWN I35", "XHAN", "None", "None", "43.23N", "093.20W", "333", "US"],
  ["IA STEAMBOAT R US20", "XSBI", "None", "None", "42.27N", "093.03W", "348", "US"],
  ["IA IDA GROVE US59", "XIGI", "None", "None", "42.21N", "095.29W", "376", "US"],
  ["IA CEDAR RAPIDS U30", "XCRI", "None", "None", "41.56N", "091.33W", "232", "US"],
  ["IA BEDFORD", "XBFI", "None", "None", "40.41N", "094.43W", "357", "US"],
  ["IA COLFAX", "XCFI", "None", "None", "41.41N", "093.16W", "247", "US"],
  ["IA EDDYVILLE", "XDYI", "None", "None", "41.09N", "092.39W", "244", "US"],
  ["IA SIBLEY", "XSYI", "None", "None", "43.26N", "095.43W", "480", "US"],
  ["IA TAMA", "XTMI", "None", "None", "41.58N", "092.18W", "250", "US"],
  ["IA CANTRIL", "XCTI", "None", "None", "40.40N", "092.04W", "211", "US"],
  ["IA DENISON", "XDNI", "None", "None", "41.55N", "095.20W", "426", "US"],
  ["IA PLAINFIELD", "XPFI", "None", "None", "42.50N", "092.32W", "294", "US"],
  ["IA QUAD CITIES", "XQCI", "None", "None", "41.31N", "090.31W", "177", "US"],
  ["IA STATE FAIR", "Q03I", "None", "None", "41.36N", "093.34W", "333", "US"],
  ["IA ADAIR", "QADI", "None", "None", "41.31N", "094.35W", "417", "US"],
  ["IA ADEL", "QAEI", "None", "None", "41.37N", "094.01W", "292", "US"],
  ["IA AFTON", "QAFI", "None", "None", "41.02N", "094.11W", "387", "US"],
  ["IA ALGONA", "QAGI", "None", "None", "43.04N", "094.14W", "341", "US"],
  ["IA ANKENY", "QAKI", "None", "None", "41.44N", "093.37W", "310", "US"],
  ["IA ALBIA", "QALI", "None", "None", "41.02N", "092.49W", "312", "US"],
  ["IA AMES", "QAMI", "None", "None", "42.03N", "093.38W", "309", "US"],
  ["IA ANITA", "QATI", "None", "None", "41.27N", "094.46W", "387", "US"],
  ["IA AUDUBON", "QAUI", "None", "None", "41.43N", "094.55W", "426", "US"],
  ["IA BEDFORD", "QBDI", "None", "None", "40.40N", "094.43W", "350", "US"],
  ["IA BELMOND", "QBKI", "None", "None", "42.51N", "093.36W", "372", "US"],
  ["IA BLOOMFIELD", "QBMI", "None", "None", "40.45N", "092.25W", "260", "US"],
  ["IA BOONE", "QBOI", "None", "None", "42.02N", "093.47W", "353", "US"],
  ["IA BROOKLYN", "QBRI", "None", "None", "41.44N", "092.27W", "280", "US"],
  ["IA BUSSEY", "QBSI", "None", "None", "41.13N", "092.53W", "265", "US"],
  ["IA BAXTER", "QBXI", "None", "None", "41.50N", "093.09W", "304", "US"],
  ["IA BLANK PARK ZOO", "QBZI", "None", "None", "41.32N", "093.37W", "294", "US"],
  ["IA CARROLL", "QCAI", "None", "None", "42.04N", "094.52W", "423", "US"],
  ["IA COON RAPIDS", "QCBI", "None", "None", "41.53N", "094.41W", "386", "US"],
  ["IA CHARLES CITY", "QCCI", "None", "None", "43.04N", "092.40W", "304", "US"],
  ["IA CORYDON", "QCDI", "None", "None", "40.45N", "093.19W", "331", "US"],
  ["IA CENTERVILLE", "QCEI", "None", "None", "40.44N", "092.52W", "299", "US"],
  ["IA CLARION", "QCGI", "None", "None", "42.44N", "093.44W", "377", "US"],
  ["IA CHARITON", "QCHI", "None", "None", "41.01N", "093.19W", "332", "US"],
  ["IA CLEAR LAKE", "QCKI", "None", "None", "43.08N", "093.22W", "368", "US"],
  ["IA CRESCO", "QCQI", "None", "None", "43.23N", "092.06W", "390", "US"],
  ["IA CORNING", "QCNI", "None", "None", "40.59N", "094.44W", "390", "US"],
  ["IA COLO", "QCOI", "None", "None", "42.01N", "093.19W", "315", "US"],
  ["IA CRESTON", "QCRI", "None", "None", "41.04N", "094.22W", "417", "US"],
  ["IA INWOOD", "QCSI", "None", "None", "43.19N", "096.26W", "449", "US"],
  ["IA DSM CHRISTIAN", "QDCI", "None", "None", "41.38N", "093.48W", "279", "US"],
  ["IA SHELDON", "QDNI", "None", "None", "43.11N", "095.50W", "433", "US"],
  ["IA RIVER WOODS", "QDRI", "None", "None", "41.34N", "093.35W", "304", "US"]]

/-- `STATIONS` (database/stations.py 1117-1216). -/
noncomputable def stations11 : List StationRow := rows! [
  ["IA EAGLE GROVE", "QEGI", "None", "None", "42.40N", "093.55W", "339", "US"],
  ["IA FARNHAMVILLE", "QFAI", "None", "None", "42.20N", "094.25W", "374", "US"],
  ["IA FOREST CITY", "QFCI", "None", "None", "43.16N", "093.39W", "384", "US"],
  ["IA FORT DODGE", "QFDI", "None", "None", "42.31N", "094.11W", "353", "US"],
  ["IA FONTANELLE", "QFOI", "None", "None", "41.17N", "094.34W", "423", "US"],
  ["IA GLIDDEN", "QGLI", "None", "None", "42.04N", "094.44W", "387", "US"],
  ["IA GARNER", "QGNI", "None", "None", "43.05N", "093.37W", "373", "US"],
  ["IA GRIMES", "QGRI", "None", "None", "41.41N", "093.48W", "310", "US"],
  ["IA HULL", "QHII", "None", "None", "43.11N", "096.08W", "436", "US"],
  ["IA HAMPTON", "QHPI", "None", "None", "42.45N", "093.11W", "328", "US"],
  ["IA HUMBOLDT", "QHUI", "None", "None", "42.43N", "094.14W", "379", "US"],
  ["IA ICA", "QIAI", "None", "None", "41.35N", "093.44W", "285", "US"],
  ["IA IOWA FALLS", "QIFI", "None", "None", "42.32N", "093.16W", "376", "US"],
  ["IA INDIANOLA", "QINI", "None", "None", "41.22N", "093.33W", "310", "US"],
  ["IA JORDAN CREEK", "QJCI", "None", "None", "41.34N", "093.46W", "283", "US"],
  ["IA JEFFERSON", "QJEI", "None", "None", "42.00N", "094.23W", "338", "US"],
  ["IA SOUTH HAMILTON", "QJWI", "None", "None", "42.18N", "093.39W", "340", "US"],
  ["IA KCCI", "QKCI", "None", "None", "41.35N", "093.38W", "274", "US"],
  ["IA KNOXVILLE", "QKNI", "None", "None", "41.19N", "093.07W", "301", "US"],
  ["IA KANAWHA", "QKWI", "None", "None", "42.56N", "093.47W", "369", "US"],
  ["IA LEON", "QLEI", "None", "None", "40.45N", "093.44W", "365", "US"],
  ["IA LATIMER", "QLMI", "None", "None", "42.45N", "093.22W", "398", "US"],
  ["IA LAMONI", "QLOI", "None", "None", "40.38N", "093.56W", "359", "US"],
  ["IA LUVERNE", "QLUI", "None", "None", "42.55N", "094.05W", "360", "US"],
  ["IA ROCK RAPIDS", "QLYI", "None", "None", "43.25N", "096.10W", "410", "US"],
  ["IA MARSHALLTOWN", "QMAI", "None", "None", "42.01N", "092.55W", "314", "US"],
  ["IA MADRID", "QMDI", "None", "None", "41.53N", "093.49W", "310", "US"],
  ["IA LAKE MILLS", "QMII", "None", "None", "43.25N", "093.32W", "393", "US"],
  ["IA MALLARD", "QMLI", "None", "None", "42.56N", "094.41W", "387", "US"],
  ["IA MONTEZUMA", "QMNI", "None", "None", "41.35N", "092.31W", "309", "US"],
  ["IA MOUNT AYR", "QMOI", "None", "None", "40.43N", "094.14W", "396", "US"],
  ["IA MANSON-NW", "QMSI", "None", "None", "42.30N", "094.22W", "368", "US"],
  ["IA MURRAY", "QMUI", "None", "None", "41.02N", "093.57W", "365", "US"],
  ["IA MASON CITY", "QMWI", "None", "None", "43.08N", "093.14W", "357", "US"],
  ["IA MASON CITY", "QMYI", "None", "None", "43.09N", "093.10W", "335", "US"],
  ["IA NEWTON", "QNEI", "None", "None", "41.42N", "093.02W", "305", "US"],
  ["IA THOMPSON", "QNII", "None", "None", "43.22N", "093.42W", "384", "US"],
  ["IA NORTHWOOD", "QNKI", "None", "None", "43.27N", "093.12W", "371", "US"],
  ["IA NORA SPRINGS", "QNSI", "None", "None", "43.09N", "093.00W", "332", "US"],
  ["IA NEVADA", "QNVI", "None", "None", "42.01N", "093.26W", "313", "US"],
  ["IA OSAGE", "QOAI", "None", "None", "43.17N", "092.49W", "353", "US"],
  ["IA OSKALOOSA", "QOCI", "None", "None", "41.18N", "092.39W", "245", "US"],
  ["IA OGDEN", "QOGI", "None", "None", "42.02N", "094.02W", "332", "US"],
  ["IA OSCEOLA", "QOSI", "None", "None", "41.02N", "093.46W", "353", "US"],
  ["IA PANORA", "QPAI", "None", "None", "41.42N", "094.22W", "356", "US"],
  ["IA PELLA", "QPEI", "None", "None", "41.25N", "092.54W", "289", "US"],
  ["IA NORTH POLK", "QPKI", "None", "None", "41.47N", "093.43W", "286", "US"],
  ["IA PERRY", "QPYI", "None", "None", "41.50N", "094.05W", "312", "US"],
  ["IA MASON CITY", "QRMI", "None", "None", "43.08N", "093.06W", "328", "US"],
  ["IA ROCKWELL CITY", "QROI", "None", "None", "42.23N", "094.38W", "384", "US"],
  ["IA ROCKFORD", "QRRI", "None", "None", "43.03N", "092.56W", "316", "US"],
  ["IA ROCKWELL", "QRSI", "None", "None", "42.59N", "093.06W", "351", "US"],
  ["IA RUSSELL", "QRUM", "None", "None", "44.19N", "095.57W", "466", "US"],
  ["IA RICEVILLE", "QRVI", "None", "None", "43.21N", "092.30W", "382", "US"],
  ["IA ST ANSGAR", "QSAI", "None", "None", "43.22N", "092.55W", "358", "US"],
  ["IA SIBLEY", "QSBI", "None", "None", "43.24N", "095.45W", "462", "US"],
  ["IA STUART", "QSTI", "None", "None", "41.30N", "094.19W", "367", "US"],
  ["IA SULLY", "QSUI", "None", "None", "41.34N", "092.50W", "289", "US"],
  ["IA TITONKA", "QTKI", "None", "None", "43.14N", "094.02W", "348", "US"],
  ["IA MESKWAKI SS TAMA", "QTQI", "None", "None", "41.59N", "092.39W", "256", "US"],
  ["IA UNION", "QUNI", "None", "None", "42.14N", "093.04W", "301", "US"],
  ["IA VENTURA", "QVTI", "None", "None", "43.08N", "093.29W", "386", "US"],
  ["IA WALL LAKE", "QWAI", "None", "None", "42.16N", "095.06W", "426", "US"],
  ["IA WEBSTER CITY", "QWBI", "None", "None", "42.28N", "093.49W", "345", "US"],
  ["IA WOODWARD", "QWGI", "None", "None", "41.52N", "093.55W", "291", "US"],
  ["IA WINTERSET", "QWII", "None", "None", "41.20N", "094.01W", "356", "US"],
  ["IA POCAHONTAS", "QPCI", "None", "None", "42.44N", "094.40W", "372", "US"],
  ["ID ADA COUNTY/BOISE", "KCBX", "CBX", "None", "43.29N", "116.14W", "933", "US"],
  ["ID BOISE", "KBOI", "BOI", "72681", "43.34N", "116.14W", "875", "US"],
  ["ID BURLEY", "KBYI", "BYI", "None", "42.33N", "113.46W", "1264", "US"],
  ["ID BONNERS FERRY", "K65S", "65S", "None", "48.44N", "116.18W", "713", "US"],
  ["ID CALDWELL", "KEUL", "EUL", "None", "43.37N", "116.37W", "740", "US"],
  ["ID CHALLIS", "KLLJ", "LLJ", "None", "44.31N", "114.13W", "1536", "US"],
  ["ID COEUR D'ALENE", "KCOE", "COE", "None", "47.46N", "116.49W", "707", "US"],
  ["ID DRIGGS REED MEM", "KDIJ", "DIJ", "None", "43.45N", "111.06W", "1899", "US"],
  ["ID DUBIOS (VOR)", "KDBS", "DBS", "None", "44.05N", "112.13W", "1638", "US"],
  ["ID GRANGEVILLE", "KGIC", "GIC", "72687", "45.56N", "116.08W", "1009", "US"],
  ["ID HAILEY/FRIEDMAN", "KSUN", "SUN", "None", "43.30N", "114.17W", "1620", "US"],
  ["ID IDAHO FALLS", "KIDA", "IDA", "None", "43.31N", "112.04W", "1453", "US"],
  ["ID JEROME COUNTY", "KJER", "JER", "None", "42.43N", "114.27W", "1222", "US"],
  ["ID LEWISTON", "KLWS", "LWS", "72783", "46.22N", "117.01W", "438", "US"],
  ["ID LOWELL/ELK CITY", "KP69", "P69", "None", "46.09N", "115.36W", "480", "US"],
  ["ID MALAD CITY", "KMLD", "MLD", "None", "42.10N", "112.17W", "1373", "US"],
  ["ID MALTA (AWRS)", "K77M", "77M", "None", "42.19N", "113.19W", "1375", "US"],
  ["ID MCCALL", "KMYL", "MYL", "None", "44.54N", "116.06W", "1533", "US"],
  ["ID MCCALL (VOR)", "KDNJ", "DNJ", "None", "44.46N", "116.13W", "2433", "US"],
  ["ID MOUNTAIN HOME", "KMUO", "MUO", "None", "43.02N", "115.52W", "913", "US"],
  ["ID MULLAN PASS", "KMLP", "MLP", "None", "47.27N", "115.40W", "1837", "US"],
  ["ID NAMPA", "KMAN", "MAN", "None", "43.35N", "116.31W", "774", "US"],
  ["ID POCATELLO", "KPIH", "PIH", "72578", "42.55N", "112.34W", "1359", "US"],
  ["ID REXBURG", "KRXE", "RXE", "None", "43.50N", "111.48W", "1480", "US"],
  ["ID SALMON/VOR", "KLKT", "LKT", "None", "45.01N", "114.05W", "2822", "US"],
  ["ID SALMON/LEMHI", "KSMN", "SMN", "72686", "45.07N", "113.52W", "1233", "US"],
  ["ID SODA SPRINGS", "KU78", "U78", "None", "42.38N", "111.34W", "1780", "US"],
  ["ID SPENCER", "KS14", "S14", "None", "44.21N", "112.10W", "1800", "US"],
  ["ID SPRINGFIELD/PIH", "KSFX", "SFX", "None", "43.06N", "112.41W", "1364", "US"],
  ["ID STANLEY", "KSNT", "SNT", "None", "44.10N", "114.56W", "1980", "US"],
  ["ID TWIN FALLS", "KTWF", "TWF", "None", "42.29N", "114.29W", "1266", "US"],
  ["ID WALL/SANDPOINT", "KSZT", "SZT", "None", "48.18N", "116.34W", "648", "US"],
  ["ID CALDWELL (AWOS)", "KU35", "U35", "None", "43.37N", "116.37W", "740", "US"]]

/-- `STATIONS` (database/stations.py 1217-1316). -/
noncomputable def stations12 : List StationRow := rows! [
  ["ID CHALLIS", "KU15", "U15", "None", "44.31N", "114.13W", "1536", "US"],
  ["ID GOODING", "KGNG", "GNG", "72586", "42.55N", "114.46W", "1126", "US"],
  ["ID JEROME", "KU73", "U73", "None", "42.44N", "114.27W", "1222", "US"],
  ["ID MULLAN (AWRS)", "KS06", "S06", "None", "47.28N", "115.47W", "1011", "US"],
  ["ID REXBURG", "KU11", "U11", "None", "43.50N", "111.48W", "1480", "US"],
  ["ID SALMON (AWRS)", "K27U", "27U", "None", "45.10N", "113.54W", "1210", "US"],
  ["ID SAYLOR CREEK", "KMI1", "MI1", "None", "42.30N", "115.30W", "1000", "US"],
  ["ID GRANGEVILLE", "KS80", "S80", "None", "45.57N", "116.07W", "1011", "US"],
  ["IL ALTON/ST LOUIS R", "KALN", "ALN", "None", "38.53N", "090.02W", "166", "US"],
  ["IL BLOOMINGTON/NORM", "KBMI", "BMI", "None", "40.28N", "088.55W", "267", "US"],
  ["IL BRADFORD/VOR", "KBDF", "BDF", "None", "41.09N", "089.35W", "247", "US"],
  ["IL CAHOKIA/ST LOUIS", "KCPS", "CPS", "None", "38.34N", "090.09W", "126", "US"],
  ["IL CAIRO", "KCIR", "CIR", "None", "37.04N", "089.13W", "98", "US"],
  ["IL CARBONDALE/MURPH", "KMDH", "MDH", "None", "37.47N", "089.15W", "130", "US"],
  ["IL CARMI MUNI", "KCUL", "None", "None", "38.05N", "088.07W", "118", "US"],
  ["IL CENTRALIA", "KENL", "ENL", "None", "38.31N", "089.06W", "163", "US"],
  ["IL CHAMPAIGN/URBANA", "KCMI", "CMI", "None", "40.02N", "088.16W", "228", "US"],
  ["IL CHICAGO", "KMDW", "MDW", "72534", "41.47N", "087.45W", "188", "US"],
  ["IL CHICAGO O'HARE", "KORD", "ORD", "72530", "41.59N", "087.56W", "200", "US"],
  ["IL CHICAGO/AURORA", "KARR", "ARR", "74465", "41.46N", "088.29W", "215", "US"],
  ["IL CHICAGO/DUPAGE", "KDPA", "DPA", "None", "41.55N", "088.15W", "231", "US"],
  ["IL CHICAGO/MEIGS", "KCGX", "CGX", "None", "41.52N", "087.35W", "181", "US"],
  ["IL CHICAGO/LANSING", "KIGQ", "IGQ", "None", "41.32N", "087.32W", "188", "US"],
  ["IL CHICAGO/ARTCC", "KZAU", "ZAU", "None", "41.47N", "088.20W", "213", "US"],
  ["IL DANVILLE", "KDNV", "DNV", "None", "40.12N", "087.36W", "212", "US"],
  ["IL DECATUR", "KDEC", "DEC", "None", "39.50N", "088.51W", "207", "US"],
  ["IL DECATUR", "KAXC", "AXC", "None", "39.50N", "088.51W", "207", "US"],
  ["IL DE KALB", "KDKB", "DKB", "None", "41.56N", "088.42W", "279", "US"],
  ["IL DIXON", "KC73", "C73", "None", "41.50N", "089.27W", "240", "US"],
  ["IL EFFINGHAM", "K1H2", "1H2", "None", "39.04N", "088.32W", "179", "US"],
  ["IL FAIRFIELD", "KFWC", "FWC", "None", "38.23N", "088.25W", "133", "US"],
  ["IL FREEPORT", "KFEP", "FEP", "None", "42.15N", "089.35W", "262", "US"],
  ["IL FLORA", "KFOA", "FOA", "None", "38.40N", "088.27W", "144", "US"],
  ["IL GALESBURG", "KGBG", "GBG", "None", "40.56N", "090.26W", "233", "US"],
  ["IL GREENVILLE", "KGRE", "GRE", "None", "38.50N", "089.23W", "165", "US"],
  ["IL HARRISBURG", "KHSB", "HSB", "None", "37.49N", "088.33W", "121", "US"],
  ["IL JACKSONVILLE", "KIJX", "IJX", "None", "39.46N", "090.15W", "190", "US"],
  ["IL JOLIET", "KJOT", "JOT", "None", "41.31N", "088.11W", "177", "US"],
  ["IL KANKAKEE", "KIKK", "IKK", "None", "41.04N", "087.51W", "192", "US"],
  ["IL LACON", "KC75", "C75", "None", "41.01N", "089.23W", "173", "US"],
  ["IL LAWRENCEVILLE", "KLWV", "LWV", "None", "38.46N", "087.36W", "131", "US"],
  ["IL LINCOLN", "KILX", "ILX", "74560", "40.09N", "089.20W", "177", "US"],
  ["IL LINCOLN", "KAAA", "AAA", "None", "40.10N", "089.20W", "182", "US"],
  ["IL LITCHFIELD MUNI", "K3LF", "3LF", "None", "39.10N", "089.40W", "210", "US"],
  ["IL MACOMB MUNI", "KMQB", "MQB", "None", "40.31N", "090.39W", "215", "US"],
  ["IL MARION REGIONAL", "KMWA", "MWA", "None", "37.46N", "089.01W", "144", "US"],
  ["IL MARSEILLES", "KMMO", "MMO", "74460", "41.22N", "088.40W", "225", "US"],
  ["IL MATTOON/CHARLEST", "KMTO", "MTO", "None", "39.28N", "088.16W", "214", "US"],
  ["IL METROPOLIS", "KM30", "M30", "None", "37.11N", "088.45W", "117", "US"],
  ["IL MOLINE/QUAD CITY", "KMLI", "MLI", "72544", "41.27N", "090.31W", "184", "US"],
  ["IL MONEE", "KC56", "C56", "None", "41.23N", "087.41W", "241", "US"],
  ["IL MORRIS-WASHBURN", "KC09", "C09", "None", "41.26N", "088.25W", "178", "US"],
  ["IL MOUNT CARMEL", "KAJG", "AJG", "None", "38.37N", "087.44W", "131", "US"],
  ["IL MOUNT STERLING", "KI63", "I63", "None", "39.59N", "090.48W", "224", "US"],
  ["IL MOUNT VERNON", "KMVN", "MVN", "None", "38.19N", "088.52W", "146", "US"],
  ["IL OLNEY-NOBLE", "KOLY", "OLY", "None", "38.43N", "088.11W", "147", "US"],
  ["IL PALWAUKEE", "KPWK", "PWK", "None", "42.07N", "087.54W", "203", "US"],
  ["IL PEORIA", "KPIA", "PIA", "72532", "40.40N", "089.41W", "205", "US"],
  ["IL PARIS", "KPRG", "PRG", "None", "39.42N", "087.40W", "199", "US"],
  ["IL PERU", "KVYS", "VYS", "None", "41.21N", "089.09W", "199", "US"],
  ["IL PITTSFIELD", "KPPQ", "PPQ", "None", "39.38N", "090.47W", "216", "US"],
  ["IL PONTIAC", "KPNT", "PNT", "None", "40.55N", "088.37W", "201", "US"],
  ["IL QUINCY MUNI/BALD", "KUIN", "UIN", "None", "39.57N", "091.12W", "234", "US"],
  ["IL RANTOUL", "KTIP", "TIP", "None", "40.17N", "088.09W", "225", "US"],
  ["IL ROBINSON MUNI", "KRSV", "RSV", "None", "39.01N", "087.39W", "141", "US"],
  ["IL ROCKFORD", "KRFD", "RFD", "72543", "42.12N", "089.06W", "221", "US"],
  ["IL ROCHELLE/KORITZ", "KRPJ", "RPJ", "None", "41.53N", "089.05W", "238", "US"],
  ["IL ROMEOVILLE/CHI", "KLOT", "LOT", "None", "41.36N", "088.06W", "205", "US"],
  ["IL SALEM/LECKRONE", "KSLO", "SLO", "None", "38.39N", "088.58W", "175", "US"],
  ["IL SAVANNA/TRITOWN", "KSFY", "SFY", "None", "42.03N", "090.07W", "188", "US"],
  ["IL SCOTT AFB/BELLEV", "KBLV", "BLV", "None", "38.32N", "089.50W", "138", "US"],
  ["IL SPARTA", "KSAR", "SAR", "None", "38.09N", "089.42W", "164", "US"],
  ["IL SPRINGFIELD", "KSPI", "SPI", "72439", "39.51N", "089.41W", "181", "US"],
  ["IL STERLING ROCKFAL", "KSQI", "SQI", "None", "41.45N", "089.40W", "197", "US"],
  ["IL TAYLORVILLE", "KTAZ", "TAZ", "None", "39.32N", "089.20W", "190", "US"],
  ["IL VANDALIA", "KVLA", "VLA", "None", "38.59N", "089.10W", "164", "US"],
  ["IL WAUKEGAN", "KUGN", "UGN", "None", "42.25N", "087.52W", "222", "US"],
  ["IL WINCHESTER PROFI", "None", "WNC", "74556", "39.38N", "090.28W", "170", "US"],
  ["IL CHICAGO", "KCHI", "CHI", "None", "42.00N", "087.53W", "203", "US"],
  ["IL GLENVIEW NAS", "KNBU", "NBU", "None", "42.05N", "087.49W", "199", "US"],
  ["IL LINCOLN", "K3LC", "3LC", "None", "40.10N", "089.20W", "182", "US"],
  ["IL RANTOUL", "K2I5", "2I5", "None", "40.18N", "088.09W", "225", "US"],
  ["IL ROCHELLE/KORITZ", "K12C", "12C", "None", "41.53N", "089.04W", "238", "US"],
  ["IN ANDERSON MUNICIP", "KAID", "AID", "None", "40.07N", "085.37W", "280", "US"],
  ["IN ANGOLA", "KANQ", "ANQ", "None", "41.38N", "085.05W", "303", "US"],
  ["IN AUBURN DEKALB C", "KGWB", "GWB", "None", "41.18N", "085.04W", "269", "US"],
  ["IN BLOOMINGTON", "KBMG", "BMG", "None", "39.09N", "086.37W", "257", "US"],
  ["IN COLUMBUS/BALKALA", "KBAK", "BAK", "None", "39.16N", "085.54W", "200", "US"],
  ["IN CRAWFORDSVILLE", "KCFJ", "CFJ", "None", "39.59N", "086.55W", "244", "US"],
  ["IN DAVIESS COUNTY", "KDCY", "DCY", "None", "38.42N", "087.08W", "144", "US"],
  ["IN ELKHART MUNICIPA", "KEKM", "EKM", "None", "41.43N", "086.00W", "237", "US"],
  ["IN EVANSVILLE", "KEVV", "EVV", "72432", "38.03N", "087.31W", "117", "US"],
  ["IN EVANSVILLE", "KVWX", "VWX", "None", "38.16N", "087.43W", "190", "US"],
  ["IN FORT WAYNE", "KFWA", "FWA", "72533", "40.59N", "085.11W", "248", "US"],
  ["IN FRANKFORT", "KFKR", "FKR", "None", "40.16N", "086.34W", "263", "US"],
  ["IN GARY REGIONAL", "KGYY", "GYY", "None", "41.37N", "087.25W", "180", "US"],
  ["IN GOSHEN", "KGSH", "GSH", "None", "41.32N", "085.47W", "252", "US"],
  ["IN GREENCASTLE", "KGPC", "GPC", "None", "39.38N", "086.49W", "257", "US"],
  ["IN GRISSOM AFB/PERU", "KGUS", "GUS", "None", "40.38N", "086.09W", "247", "US"],
  ["IN HIMSEL AAF", "K1II", "1II", "None", "39.20N", "086.02W", "214", "US"]]

/-- `STATIONS` (database/stations.py 1317-1416). -/
noncomputable def stations13 : List StationRow := rows! [
  ["IN HUNTINGBURG", "KHNB", "HNB", "None", "38.15N", "086.57W", "161", "US"],
  ["IN HUNTINGTON", "KHHG", "HHG", "None", "40.51N", "085.27W", "246", "US"],
  ["IN INDIANAPOLIS", "KEYE", "EYE", "None", "39.50N", "086.18W", "248", "US"],
  ["IN INDIANAPOLIS", "KIND", "IND", "72438", "39.43N", "086.18W", "241", "US"],
  ["IN INDIANAPOL/METRO", "KUMP", "UMP", "None", "39.56N", "086.03W", "248", "US"],
  ["IN INDIANAPOL/ARTCC", "KZID", "ZID", "None", "39.44N", "086.17W", "243", "US"],
  ["IN INDIANAPOLIS EXC", "KTYQ", "TYQ", "None", "40.02N", "086.15W", "281", "US"],
  ["IN INDIANAPOLIS REG", "KMQJ", "MQJ", "None", "39.51N", "085.54W", "263", "US"],
  ["IN INDIANAPOLIS", "KHFY", "HFY", "None", "39.38N", "086.05W", "251", "US"],
  ["IN KENDALLVILLE", "KC62", "C62", "None", "41.28N", "085.16W", "306", "US"],
  ["IN KNOX STARKE CTY", "KOXI", "OXI", "None", "41.20N", "086.40W", "209", "US"],
  ["IN KOKOMO", "KOKK", "OKK", "None", "40.32N", "086.04W", "253", "US"],
  ["IN LAFAYETTE", "KLAF", "LAF", "None", "40.25N", "086.56W", "182", "US"],
  ["IN LAFAYETTE VOR", "KBVT", "BVT", "None", "40.34N", "087.04W", "182", "US"],
  ["IN LA PORTE", "KPPO", "PPO", "None", "41.34N", "086.44W", "248", "US"],
  ["IN LOGANSPORT", "KGGP", "GGP", "None", "40.43N", "086.22W", "225", "US"],
  ["IN MADISON", "KIMS", "IMS", "None", "38.46N", "085.28W", "250", "US"],
  ["IN MARION MUNI", "KMZZ", "MZZ", "None", "40.29N", "085.41W", "262", "US"],
  ["IN MICHIGAN CITY", "KMGC", "MGC", "None", "41.42N", "086.49W", "200", "US"],
  ["IN MONTICELLO", "KMCX", "MCX", "None", "40.43N", "086.46W", "250", "US"],
  ["IN MUNCIE", "KMIE", "MIE", "None", "40.14N", "085.24W", "285", "US"],
  ["IN NINEVEH", "KHBE", "HBE", "None", "39.21N", "086.02W", "216", "US"],
  ["IN NORTH WEBSTER", "KIWX", "IWX", "None", "41.22N", "085.42W", "293", "US"],
  ["IN PLYMOUTH", "KC65", "C65", "None", "41.22N", "086.18W", "244", "US"],
  ["IN POCKET CITY VOR", "KPXV", "PXV", "None", "37.56N", "087.46W", "117", "US"],
  ["IN RENSSELAER", "KRZL", "RZL", "None", "40.57N", "087.11W", "213", "US"],
  ["IN RICHMOND", "KRID", "RID", "None", "39.45N", "084.51W", "348", "US"],
  ["IN ROCHESTER", "KRCR", "RCR", "None", "41.04N", "086.11W", "241", "US"],
  ["IN SHELBYVILLE", "KGEZ", "GEZ", "None", "39.35N", "085.48W", "245", "US"],
  ["IN SOUTH BEND", "KSBN", "SBN", "72535", "41.42N", "086.19W", "237", "US"],
  ["IN TERRE HAUTE", "KHUF", "HUF", "72437", "39.27N", "087.18W", "179", "US"],
  ["IN TERRE HAUTE VOR", "KTTH", "TTH", "None", "39.29N", "087.15W", "179", "US"],
  ["IN VALPARAISO", "KVPZ", "VPZ", "None", "41.27N", "087.00W", "231", "US"],
  ["IN WARSAW MUNI", "KASW", "ASW", "None", "41.16N", "085.50W", "259", "US"],
  ["IN WOLCOTT PROFILER", "None", "WLC", "74466", "40.49N", "087.03W", "212", "US"],
  ["IN BATESVILLE", "KHLB", "HLB", "None", "39.21N", "085.16W", "200", "US"],
  ["IN GREENCASTLE", "K4I7", "4I7", "None", "39.38N", "086.49W", "257", "US"],
  ["IN INDIANAPOLIS/EAG", "KI14", "I14", "None", "39.50N", "086.18W", "251", "US"],
  ["IN JEFFERSON PRVG", "None", "MDN", "74468", "38.50N", "085.25W", "266", "US"],
  ["IN SHELBYVILLE", "K3SM", "3SM", "None", "39.35N", "085.48W", "245", "US"],
  ["KS ALMA/TOPEKA", "KTWX", "TWX", "None", "39.00N", "096.14W", "417", "US"],
  ["KS AUGUSTA", "K3AU", "3AU", "None", "37.40N", "097.05W", "416", "US"],
  ["KS BENTON", "K1K1", "1K1", "None", "37.46N", "097.07W", "416", "US"],
  ["KS BURLINGTON", "KUKL", "UKL", "None", "38.18N", "095.44W", "358", "US"],
  ["KS CHANUTE", "KCNU", "CNU", "None", "37.40N", "095.29W", "297", "US"],
  ["KS COFFEYVILLE", "KCFV", "CFV", "None", "37.05N", "095.34W", "225", "US"],
  ["KS CONCORDIA", "KCNK", "CNK", "72458", "39.33N", "097.39W", "447", "US"],
  ["KS DODGE CITY", "KDDC", "DDC", "72451", "37.46N", "099.58W", "789", "US"],
  ["KS EL DORADO", "KEQA", "EQA", "None", "37.46N", "096.49W", "421", "US"],
  ["KS ELKHART", "KEHA", "EHA", "72460", "37.00N", "101.54W", "1099", "US"],
  ["KS EMPORIA", "KEMP", "EMP", "None", "38.20N", "096.12W", "367", "US"],
  ["KS FORT LEAVENWORTH", "KFLV", "FLV", "None", "39.22N", "094.55W", "235", "US"],
  ["KS FT RILEY/MARSHAL", "KFRI", "FRI", "72455", "39.02N", "096.46W", "325", "US"],
  ["KS GARDEN CITY", "KGCK", "GCK", "None", "37.55N", "100.43W", "877", "US"],
  ["KS GARNETT", "KK68", "K68", "None", "38.17N", "095.13W", "301", "US"],
  ["KS GOODLAND", "KGLD", "GLD", "72465", "39.22N", "101.42W", "1113", "US"],
  ["KS GREAT BEND", "KGBD", "GBD", "None", "38.21N", "098.52W", "575", "US"],
  ["KS HARPER", "K8K2", "8K2", "None", "37.17N", "098.03W", "445", "US"],
  ["KS HAVILAND PROFILE", "KHVL", "HVL", "74541", "37.39N", "099.06W", "648", "US"],
  ["KS HAYS MUNI", "KHYS", "HYS", "None", "38.51N", "099.16W", "609", "US"],
  ["KS HILL CITY", "KHLC", "HLC", "None", "39.22N", "099.50W", "669", "US"],
  ["KS HILLSBORO PROFIL", "None", "HBR", "74546", "38.17N", "097.17W", "477", "US"],
  ["KS HILLSBORO", "None", "None", "74547", "38.37N", "097.18W", "477", "US"],
  ["KS HUTCHINSON", "KHUT", "HUT", "None", "38.04N", "097.52W", "467", "US"],
  ["KS INDEPENDENCE", "KIDP", "IDP", "None", "37.10N", "095.47W", "251", "US"],
  ["KS IOLA", "KK88", "K88", "None", "37.52N", "095.23W", "310", "US"],
  ["KS JENNINGS", "KJN8", "JN8", "None", "39.41N", "100.18W", "762", "US"],
  ["KS LAWRENCE", "KLWC", "LWC", "None", "39.01N", "095.13W", "253", "US"],
  ["KS LEOTI/HOARD MEML", "K3K7", "3K7", "None", "38.27N", "101.21W", "1007", "US"],
  ["KS LIBERAL", "KLBL", "LBL", "None", "37.02N", "100.58W", "879", "US"],
  ["KS MANHATTAN", "KMHK", "MHK", "None", "39.08N", "096.41W", "317", "US"],
  ["KS MARYSVILLE", "KMYZ", "MYZ", "None", "39.51N", "096.38W", "392", "US"],
  ["KS MCCONNELL AFB", "KIAB", "IAB", "None", "37.37N", "097.16W", "418", "US"],
  ["KS MEDICINE LODGE", "KP28", "P28", "72452", "37.17N", "098.33W", "469", "US"],
  ["KS NEODESHA PROFILE", "None", "NDS", "74542", "37.22N", "095.37W", "255", "US"],
  ["KS NEW ALMELO", "KAL8", "AL8", "None", "39.36N", "100.07W", "734", "US"],
  ["KS NEWTON", "KEWK", "EWK", "None", "38.02N", "097.16W", "467", "US"],
  ["KS OLATHE/INDUSTRIA", "KIXD", "IXD", "None", "38.49N", "094.53W", "342", "US"],
  ["KS OLATHE/EXECUTIVE", "KOJC", "OJC", "None", "38.51N", "094.44W", "326", "US"],
  ["KS OSWEGO/VOR", "KOSW", "OSW", "None", "37.09N", "095.12W", "283", "US"],
  ["KS OTTAWA", "KOWI", "OWI", "None", "38.32N", "095.15W", "295", "US"],
  ["KS PARSONS", "KPPF", "PPF", "None", "37.20N", "095.30W", "274", "US"],
  ["KS PITTSBURG", "KPTS", "PTS", "None", "37.27N", "094.44W", "290", "US"],
  ["KS PRATT INDUST", "KPTT", "PTT", "None", "37.42N", "098.45W", "595", "US"],
  ["KS RUSSELL", "KRSL", "RSL", "None", "38.52N", "098.49W", "567", "US"],
  ["KS SALINA", "KSLN", "SLN", "None", "38.47N", "097.39W", "385", "US"],
  ["KS SUBLETTE", "K19S", "19S", "None", "37.30N", "100.50W", "888", "US"],
  ["KS TOPEKA/FORBES", "KFOE", "FOE", "None", "38.56N", "095.39W", "320", "US"],
  ["KS TOPEKA", "KTOP", "TOP", "72456", "39.04N", "095.38W", "268", "US"],
  ["KS WAKEENEY", "KWK6", "WK6", "None", "39.02N", "099.53W", "752", "US"],
  ["KS WICHITA", "KICT", "ICT", "72450", "37.39N", "097.26W", "407", "US"],
  ["KS WICHITA/JABARA", "KAAO", "AAO", "None", "37.45N", "097.13W", "434", "US"],
  ["KS WICHITA/BEECH", "KBEC", "BEC", "None", "37.42N", "097.13W", "430", "US"],
  ["KS WINFIELD/ARKANSA", "KWLD", "WLD", "None", "37.10N", "097.02W", "350", "US"],
  ["KS ELKHART", "K1K5", "1K5", "None", "37.00N", "101.53W", "1102", "US"],
  ["KS SMOKEY HILL GUN", "None", "None", "74545", "38.39N", "097.48W", "422", "US"],
  ["KS WICHITA/JABARA", "K3KM", "3KM", "None", "37.45N", "097.13W", "433", "US"],
  ["KS OBERLIN", "KOIN", "OIN", "None", "39.50N", "100.32W", "824", "US"],
  ["KS SYRACUSE", "K3K3", "3K3", "None", "38.00N", "101.45W", "1013", "US"],
  ["KS NORTON", "KNRN", "NRN", "None", "39.51N", "099.54W", "727", "US"]]

/-- `STATIONS` (database/stations.py 1417-1516). -/
noncomputable def stations14 : List StationRow := rows! [
  ["KS TRIBUNE", "KTRB", "TRB", "None", "38.27N", "101.45W", "1103", "US"],
  ["KS COLBY", "KCBK", "CBK", "None", "39.26N", "101.03W", "971", "US"],
  ["KS GRINNELL", "KGNL", "GNL", "None", "39.08N", "100.37W", "887", "US"],
  ["KS HOXIE", "KHOX", "HOX", "None", "39.22N", "100.26W", "833", "US"],
  ["KS PHILLIPSBURG", "KPHG", "PHG", "None", "39.44N", "099.19W", "582", "US"],
  ["KS HERNDON", "KHD7", "HD7", "None", "39.55N", "100.50W", "814", "US"],
  ["KS LOGAN", "KLG5", "LG5", "None", "39.40N", "099.34W", "597", "US"],
  ["KS ST FRANCIS", "KSYF", "SYF", "None", "39.46N", "101.48W", "1025", "US"],
  ["KS ABILENE", "KK78", "K78", "None", "38.54N", "097.14W", "352", "US"],
  ["KS ELLSWORTH", "K9K7", "9K7", "None", "38.45N", "098.14W", "492", "US"],
  ["KS EUREKA", "K13K", "13K", "None", "37.51N", "096.18W", "369", "US"],
  ["KS FORT SCOTT", "KFSK", "FSK", "None", "37.48N", "094.46W", "280", "US"],
  ["KS HUGOTON", "KHQG", "HQG", "None", "37.10N", "101.22W", "956", "US"],
  ["KS JOHNSON", "KJHN", "JHN", "None", "37.35N", "101.44W", "1014", "US"],
  ["KS KINGMAN", "K9K8", "9K8", "None", "37.40N", "098.07W", "490", "US"],
  ["KS MCPHERSON", "KMPR", "MPR", "None", "38.21N", "097.41W", "457", "US"],
  ["KS OAKLEY", "KOEL", "OEL", "None", "39.07N", "100.49W", "929", "US"],
  ["KS SCOTT CITY", "KTQK", "TQK", "None", "38.28N", "100.53W", "904", "US"],
  ["KS SMITH CENTER", "KK82", "K82", "None", "39.46N", "098.48W", "549", "US"],
  ["KS ULYSSES", "KULS", "ULS", "None", "37.36N", "101.22W", "936", "US"],
  ["KS WELLINGTON", "KEGT", "EGT", "None", "37.19N", "097.23W", "390", "US"],
  ["KS JOHNSON", "K2K3", "2K3", "None", "37.35N", "101.44W", "1014", "US"],
  ["KY ASHLAND", "KDWU", "DWU", "None", "38.33N", "082.44W", "167", "US"],
  ["KY BIG SANDY RGNL", "KSJS", "SJS", "None", "37.45N", "082.38W", "372", "US"],
  ["KY BOWLING GREE", "KBWG", "BWG", "None", "36.58N", "086.25W", "168", "US"],
  ["KY COVINGTON", "KCVG", "CVG", "72421", "39.03N", "084.40W", "269", "US"],
  ["KY DANVILLE", "KDVK", "DVK", "None", "37.35N", "084.46W", "312", "US"],
  ["KY HOPKINTON/F CAMB", "KHPX", "HPX", "None", "36.44N", "087.17W", "176", "US"],
  ["KY HOPKINSVILLE", "KHOP", "HOP", "74671", "36.40N", "087.30W", "174", "US"],
  ["KY ELIZABETH", "KEKX", "EKX", "None", "37.43N", "085.52W", "230", "US"],
  ["KY FALMOUTH", "KK62", "K62", "None", "38.42N", "084.24W", "274", "US"],
  ["KY FLEMINGSBURG", "KFGX", "FGX", "None", "38.33N", "083.45W", "279", "US"],
  ["KY FORT KNOX/88D", "KLVX", "LVX", "None", "37.59N", "085.57W", "219", "US"],
  ["KY FORT KNOX/GODMAN", "KFTK", "FTK", "72424", "37.53N", "085.58W", "230", "US"],
  ["KY FRANKFORT", "KFFT", "FFT", "None", "38.11N", "084.54W", "236", "US"],
  ["KY GLASGOW", "KGLW", "GLW", "None", "37.02N", "085.57W", "218", "US"],
  ["KY GREENVILLE", "KM21", "M21", "None", "37.14N", "087.09W", "131", "US"],
  ["KY HARLAN", "KI35", "I35", "None", "36.52N", "083.22W", "473", "US"],
  ["KY HENDERSON CITY", "KEHR", "EHR", "None", "37.49N", "087.40W", "117", "US"],
  ["KY LEWISPORT", "KKY8", "KY8", "None", "37.57N", "086.51W", "126", "US"],
  ["KY LEXINGTON", "KLEX", "LEX", "72422", "38.02N", "084.36W", "300", "US"],
  ["KY LONDON", "KLOZ", "LOZ", "72329", "37.05N", "084.04W", "362", "US"],
  ["KY LOUISVILLE", "KSDF", "SDF", "72423", "38.11N", "085.44W", "146", "US"],
  ["KY LOUISVILLE/BOWMN", "KLOU", "LOU", "None", "38.13N", "085.40W", "164", "US"],
  ["KY LOUISVILLE/WFO", "KLMK", "LMK", "None", "38.14N", "085.40W", "166", "US"],
  ["KY LOUISVILLE VOR", "KIIU", "IIU", "None", "38.06N", "085.35W", "219", "US"],
  ["KY MADISONVILLE", "K2I0", "2I0", "None", "37.21N", "087.24W", "134", "US"],
  ["KY MARION", "K5M9", "5M9", "None", "37.20N", "088.07W", "199", "US"],
  ["KY MAYFIELD", "KM25", "M25", "None", "36.46N", "088.35W", "160", "US"],
  ["KY MIDDLESBORO-BELL", "K1A6", "1A6", "None", "36.37N", "083.44W", "352", "US"],
  ["KY MONTICELLO/WAYNE", "KEKQ", "EKQ", "None", "36.51N", "084.51W", "294", "US"],
  ["KY MOREHEAD", "KSYM", "SYM", "None", "38.13N", "083.35W", "313", "US"],
  ["KY MOUNT STERLING", "KIOB", "IOB", "None", "38.03N", "083.59W", "311", "US"],
  ["KY MURRAY KYLE-OAK", "KCEY", "CEY", "None", "36.40N", "088.22W", "176", "US"],
  ["KY NOCTOR/JACKSON", "KJKL", "JKL", "None", "37.36N", "083.19W", "416", "US"],
  ["KY OWENSBORO/DAVIES", "KOWB", "OWB", "None", "37.43N", "087.10W", "124", "US"],
  ["KY PADUCAH", "KPAH", "PAH", "72435", "37.04N", "088.46W", "119", "US"],
  ["KY PIKEVILLE", "KPBX", "PBX", "None", "37.34N", "082.34W", "449", "US"],
  ["KY RICHMOND/MADISON", "KI39", "I39", "None", "37.38N", "084.20W", "306", "US"],
  ["KY SPRINGFIELD", "K6I2", "6I2", "None", "37.38N", "085.15W", "266", "US"],
  ["KY SOMERSET", "KSME", "SME", "None", "37.03N", "084.37W", "283", "US"],
  ["KY TOMPKINSVILLE", "KTZV", "TZV", "None", "36.44N", "085.39W", "316", "US"],
  ["KY WILLIAMSBURG", "KBYL", "BYL", "None", "36.48N", "084.12W", "359", "US"],
  ["KY HENDERSON CITY", "KI26", "I26", "None", "37.49N", "087.40W", "117", "US"],
  ["KY MOREHEAD", "KM97", "M97", "None", "38.13N", "083.35W", "313", "US"],
  ["KY PIKEVILLE (RAMOS", "K5I3", "5I3", "72413", "37.28N", "082.31W", "446", "US"],
  ["KY PRESTONBURG", "KK22", "K22", "None", "37.45N", "082.38W", "372", "US"],
  ["LA ABBEVILLE CC MEM", "KIYA", "IYA", "None", "29.59N", "092.05W", "5", "US"],
  ["LA ALEXANDRIA", "KAEX", "AEX", "74754", "31.20N", "092.34W", "27", "US"],
  ["LA ALEXANDRIA", "KESF", "ESF", "None", "31.24N", "092.17W", "28", "US"],
  ["LA AMELIA/LAKE PALO", "K7R3", "7R3", "None", "29.41N", "091.05W", "2", "US"],
  ["LA AUDUBON PARK", "KAUD", "AUD", "None", "29.56N", "090.08W", "2", "US"],
  ["LA BARKSDALE AFB", "KBAD", "BAD", "None", "32.30N", "093.40W", "51", "US"],
  ["LA BASTROP MOREHOUS", "KBQP", "BQP", "None", "32.45N", "091.53W", "51", "US"],
  ["LA BATON ROUGE", "KBTR", "BTR", "None", "30.32N", "091.09W", "21", "US"],
  ["LA BOGALUSA CARR F", "KBXA", "BXA", "None", "30.49N", "089.52W", "36", "US"],
  ["LA BOOTHVILLE", "KBVE", "BVE", "72232", "29.19N", "089.24W", "1", "US"],
  ["LA CAMERON HELIPORT", "K7R5", "7R5", "None", "29.46N", "093.17W", "1", "US"],
  ["LA CHENAULT/LK CHAS", "KCWF", "CWF", "None", "30.13N", "093.09W", "4", "US"],
  ["LA DEQUINCEY IND AR", "K5R8", "5R8", "None", "30.26N", "093.28W", "24", "US"],
  ["LA DERIDDER/FSS", "KDRI", "DRI", "None", "30.50N", "093.20W", "63", "US"],
  ["LA EUGENE IS 330", "K3B6", "3B6", "None", "28.14N", "091.41W", "1", "US"],
  ["LA FORT POLK FR", "KPOE", "POE", "72239", "31.03N", "093.12W", "101", "US"],
  ["LA PEASON RIDG/POLK", "KAQV", "AQV", "None", "31.24N", "093.18W", "111", "US"],
  ["LA FULLERTON/POLK", "KBKB", "BKB", "None", "31.00N", "092.55W", "94", "US"],
  ["LA SELF STRIP/POLK", "KDNK", "DNK", "None", "31.07N", "093.09W", "114", "US"],
  ["LA FOURCHON (SAWRS)", "K9F2", "9F2", "None", "29.06N", "090.12W", "2", "US"],
  ["LA PORT FOURCHON", "KXPY", "XPY", "None", "29.07N", "090.12W", "2", "US"],
  ["LA GALLIANO", "KGAO", "GAO", "None", "29.27N", "090.16W", "1", "US"],
  ["LA GALLIANO HELIPRT", "K2GL", "2GL", "None", "29.25N", "090.18W", "3", "US"],
  ["LA GRAND ISLE (SAWR", "KAXO", "AXO", "99429", "29.15N", "089.58W", "2", "US"],
  ["LA GRAND ISLE (VOR)", "KLEV", "LEV", "None", "29.11N", "090.06W", "2", "US"],
  ["LA GREEN CANYON 184", "KXCN", "XCN", "None", "27.46N", "091.31W", "1", "US"],
  ["LA GREEN CANYON 52", "K28K", "28K", "None", "27.53N", "091.30W", "1", "US"],
  ["LA HAMMOND", "KHDC", "HDC", "None", "30.31N", "090.25W", "13", "US"],
  ["LA HIGH ISLAND 334A", "KH02", "H02", "None", "28.06N", "093.24W", "30", "US"],
  ["LA HIGH IS. 264C", "KH08", "H08", "None", "28.28N", "093.44W", "30", "US"],
  ["LA OFFSHORE", "KH78", "H78", "None", "28.11N", "088.29W", "43", "US"],
  ["LA HOUMA TERREBONNE", "KHUM", "HUM", "None", "29.34N", "090.40W", "3", "US"],
  ["LA INTRACOASTAL CIT", "K7R4", "7R4", "None", "29.46N", "092.07W", "5", "US"]]

/-- `STATIONS` (database/stations.py 1517-1616). -/
noncomputable def stations15 : List StationRow := rows! [
  ["LA JENNINGS", "K3R7", "3R7", "None", "30.15N", "092.40W", "7", "US"],
  ["LA LAFAYETTE", "KLFT", "LFT", "None", "30.12N", "092.00W", "11", "US"],
  ["LA LAKE CHARLES", "KLCH", "LCH", "72240", "30.08N", "093.13W", "4", "US"],
  ["LA MANSFIELD", "K3F3", "3F3", "None", "32.04N", "093.46W", "99", "US"],
  ["LA MINDEN", "KMNE", "MNE", "None", "32.39N", "093.18W", "85", "US"],
  ["LA MONROE", "KMLU", "MLU", "None", "32.31N", "092.02W", "29", "US"],
  ["LA NATCHITOCHES", "KIER", "IER", "None", "31.44N", "093.06W", "37", "US"],
  ["LA NEW IBERIA", "KARA", "ARA", "None", "30.02N", "091.53W", "18", "US"],
  ["LA NEW ORLEANS/LAKE", "KNEW", "NEW", "None", "30.03N", "090.02W", "3", "US"],
  ["LA NEW ORLEANS NAS", "KNBG", "NBG", "None", "29.49N", "090.01W", "1", "US"],
  ["LA NEW ORLEANS/INTL", "KMSY", "MSY", "72231", "30.00N", "090.15W", "5", "US"],
  ["LA NEW ROADS", "KHZR", "HZR", "None", "30.43N", "091.29W", "12", "US"],
  ["LA NEW O SUPERDOME", "KVSH", "VSH", "None", "29.57N", "090.05W", "5", "US"],
  ["LA NEW O HELIPORT", "K7N0", "7N0", "None", "29.57N", "090.05W", "9", "US"],
  ["LA HARVEY/N ORLEANS", "KHRV", "HRV", "None", "29.51N", "090.00W", "1", "US"],
  ["LA OAKDALE ALLEN P", "KACP", "ACP", "None", "30.45N", "092.41W", "33", "US"],
  ["LA OPELOUSAS", "KOPL", "OPL", "None", "30.33N", "092.06W", "23", "US"],
  ["LA RESERVE", "KAPS", "APS", "None", "30.05N", "090.35W", "3", "US"],
  ["LA RUSTON REGIONAL", "KRSN", "RSN", "None", "32.31N", "092.35W", "95", "US"],
  ["LA PATTERSON MEMORI", "KPTN", "PTN", "None", "29.43N", "091.19W", "3", "US"],
  ["LA SALT POINT", "KP92", "P92", "None", "29.34N", "091.32W", "1", "US"],
  ["LA SHIP SHOAL 207", "KGSM", "GSM", "None", "28.32N", "090.59W", "1", "US"],
  ["LA SHREVEPORT/DWNTN", "KDTN", "DTN", "None", "32.33N", "093.45W", "53", "US"],
  ["LA SHREVEPORT", "KSHV", "SHV", "72248", "32.27N", "093.50W", "83", "US"],
  ["LA SHREVEPORT(VOR)", "KEIC", "EIC", "None", "32.46N", "093.49W", "80", "US"],
  ["LA SLIDELL/88D", "KLIX", "LIX", "72233", "30.20N", "089.50W", "7", "US"],
  ["LA SLIDELL 22", "KASD", "ASD", "None", "30.21N", "089.49W", "9", "US"],
  ["LA NEW ORLEANS RFC", "KORN", "ORN", "None", "30.15N", "089.46W", "3", "US"],
  ["LA S MARSH ISL 268", "KSRN", "SRN", "None", "29.07N", "091.52W", "1", "US"],
  ["LA S MARSH ISLAND", "K7R8", "7R8", "None", "28.18N", "091.58W", "1", "US"],
  ["LA SOUTH TIMBALIER", "KS58", "S58", "None", "28.31N", "090.34W", "1", "US"],
  ["LA SULPHUR", "KUXL", "UXL", "None", "30.08N", "093.23W", "4", "US"],
  ["LA TALLULAH/VICKSBU", "KTVR", "TVR", "None", "32.21N", "091.02W", "26", "US"],
  ["LA VENICE HELIPORT", "K1B7", "1B7", "None", "29.21N", "089.26W", "1", "US"],
  ["LA CAMERON", "KCVW", "CVW", "None", "29.47N", "093.18W", "1", "US"],
  ["LA E. CAMERON 346", "KE12", "E12", "None", "28.04N", "092.42W", "1", "US"],
  ["LA W. CAMERON 560", "KW60", "W60", "None", "28.09N", "093.21W", "1", "US"],
  ["LA PHI OIL PLATF", "KQT8", "QT8", "None", "27.32N", "092.26W", "1", "US"],
  ["LA PHI OIL PLATF", "KQT9", "QT9", "None", "27.47N", "090.38W", "1", "US"],
  ["LA PHI OIL PLATF", "K4CO", "4CO", "None", "29.47N", "093.11W", "1", "US"],
  ["LA PHI OIL PLATF", "K4C0", "4C0", "None", "29.47N", "093.11W", "1", "US"],
  ["LA WINNFIELD PROFIL", "None", "WNF", "74753", "31.53N", "092.46W", "93", "US"],
  ["LA ABBEVILLE CC MEM", "K0R3", "0R3", "None", "29.59N", "092.05W", "5", "US"],
  ["LA ALEXANDRIA/AFB", "K01R", "01R", "74755", "31.08N", "092.34W", "67", "US"],
  ["LA BASTROP MOREHOUS", "K2F8", "2F8", "None", "32.45N", "091.53W", "51", "US"],
  ["LA EUGENE IS. 266C", "K41I", "41I", "None", "28.28N", "091.47W", "31", "US"],
  ["LA GALLIANO", "KL49", "L49", "None", "29.27N", "090.16W", "1", "US"],
  ["LA GARDEN BANKS 23", "None", "None", "99447", "27.22N", "093.12W", "1", "US"],
  ["LA GARDEN BANKS172", "KGHB", "GHB", "None", "27.50N", "091.59W", "30", "US"],
  ["LA GONZALES", "KREG", "REG", "None", "30.10N", "090.56W", "5", "US"],
  ["LA GRAND CHEINER", "KL29", "L29", "None", "29.48N", "092.50W", "1", "US"],
  ["LA GONZALES", "KL38", "L38", "None", "30.10N", "090.56W", "5", "US"],
  ["LA GREEN CANYON 184", "KG01", "G01", "None", "27.54N", "091.30W", "1", "US"],
  ["LA HIGH ISLAND 511", "K01T", "01T", "None", "28.08N", "094.24W", "30", "US"],
  ["LA HIGH IS. A572C", "KH39", "H39", "None", "27.57N", "093.59W", "30", "US"],
  ["LA HIGH IS. A489B", "KL40", "L40", "None", "28.12N", "094.12W", "30", "US"],
  ["LA LEEVILLE", "K7R2", "7R2", "None", "29.13N", "090.14W", "1", "US"],
  ["LA MAIN PASS 133C", "None", "None", "99444", "29.24N", "088.24W", "1", "US"],
  ["LA MINDEN", "KF24", "F24", "None", "32.39N", "093.18W", "85", "US"],
  ["LA MISS. CANYON", "K1G7", "1G7", "None", "28.47N", "089.03W", "18", "US"],
  ["LA OAKDALE ALLEN P", "KL42", "L42", "None", "30.45N", "092.41W", "33", "US"],
  ["LA SHIP SHOAL 224A", "KS02", "S02", "None", "28.30N", "091.18W", "2", "US"],
  ["LA SHIP SHOAL 198G", "KS65", "S65", "None", "28.30N", "091.12W", "2", "US"],
  ["LA SLIDELL", "K6R0", "6R0", "None", "30.21N", "089.49W", "8", "US"],
  ["LA SLIDELL", "KSIL", "SIL", "None", "30.15N", "089.46W", "3", "US"],
  ["LA SOUTHLAND FIELD", "KL75", "L75", "None", "30.08N", "093.22W", "4", "US"],
  ["LA SOUTHWEST PASS", "None", "None", "99401", "28.54N", "089.34W", "1", "US"],
  ["LA S. PASS BLK 62A", "KH18", "H18", "None", "28.59N", "089.08W", "1", "US"],
  ["LA VENICE/HELIPORT", "K3V8", "3V8", "None", "29.07N", "089.12W", "80", "US"],
  ["LA VERMILLION", "K7W2", "7W2", "None", "28.35N", "092.28W", "1", "US"],
  ["LA VERMILLION AREA", "KVRX", "VRX", "None", "28.03N", "092.27W", "1", "US"],
  ["LA VENICE", "K7R1", "7R1", "None", "29.16N", "089.22W", "3", "US"],
  ["LA W. CAMERON 522", "KW76", "W76", "None", "28.22N", "093.30W", "30", "US"],
  ["LA W. CAMERON 556", "K37C", "37C", "None", "28.22N", "093.30W", "30", "US"],
  ["LA W. CAMERON 587", "K7B5", "7B5", "None", "28.05N", "093.12W", "1", "US"],
  ["LA MAIN PASS 299", "KMPM", "MPM", "None", "29.16N", "088.46W", "1", "US"],
  ["LA MISS CANYAN 807", "KCYD", "CYD", "None", "28.10N", "089.13W", "1", "US"],
  ["LA INDEPEDENCE 920", "KIPN", "IPN", "None", "28.05N", "087.59W", "41", "US"],
  ["LA MAGNOLIA OILP", "KGBK", "GBK", "None", "27.12N", "092.12W", "59", "US"],
  ["LA SHIP SHOAL178", "KSPR", "SPR", "None", "28.36N", "091.12W", "31", "US"],
  ["LA MISS CANYON 311A", "KMDJ", "MDJ", "None", "28.39N", "089.48W", "31", "US"],
  ["LA E CAMERON278OILP", "KEHC", "EHC", "None", "28.26N", "092.53W", "31", "US"],
  ["LA SABINE 13BOILP", "KVBS", "VBS", "None", "29.29N", "093.38W", "31", "US"],
  ["LA S MARSH268OILP", "KSCF", "SCF", "None", "29.07N", "091.52W", "8", "US"],
  ["LA VERMILLION26OILP", "KVNP", "VNP", "None", "29.28N", "092.22W", "28", "US"],
  ["LA EUGENE I 215OILP", "KEIR", "EIR", "None", "28.38N", "091.29W", "28", "US"],
  ["LA ATLANTISOILP", "KATP", "ATP", "None", "27.12N", "090.02W", "62", "US"],
  ["LA E CAMERON 47JP", "KCMB", "CMB", "None", "29.26N", "092.59W", "29", "US"],
  ["LA GREEN CANYON 338", "KGRY", "GRY", "None", "27.38N", "090.27W", "58", "US"],
  ["LA HIGH IS. 179A", "KXIH", "XIH", "None", "29.11N", "094.31W", "75", "US"],
  ["LA MAIN PASS 289C", "KVKY", "VKY", "None", "29.15N", "088.26W", "32", "US"],
  ["LA MAIN PASS 140B", "KMIS", "MIS", "None", "29.18N", "088.51W", "32", "US"],
  ["LA S TIMBALIER 301B", "KSTZ", "STZ", "None", "28.10N", "090.40W", "25", "US"],
  ["LA VERMILION 331", "KVQT", "VQT", "None", "28.16N", "092.16W", "25", "US"],
  ["LA MISS CANYON 474", "KIKT", "IKT", "None", "28.31N", "088.17W", "25", "US"],
  ["LA KEATHLEY C 875", "K18H", "18H", "None", "26.08N", "092.02W", "10", "US"],
  ["LA WALKER RIDGE 718", "KJSL", "JSL", "None", "26.14N", "095.15W", "10", "US"],
  ["MA BEDFORD", "KBED", "BED", "74490", "42.28N", "071.18W", "50", "US"],
  ["MA BEVERLY", "KBVY", "BVY", "None", "42.35N", "070.55W", "28", "US"],
  ["MA BLUE HILL OBS", "None", "BHV", "74992", "41.13N", "071.07W", "192", "US"]]

/-- `STATIONS` (database/stations.py 1617-1716). -/
noncomputable def stations16 : List StationRow := rows! [
  ["MA BLUE HILL OBS", "None", "BHV", "74995", "41.13N", "071.07W", "192", "US"],
  ["MA BOSTON", "KBOS", "BOS", "72509", "42.22N", "071.01W", "6", "US"],
  ["MA BOSTON/TAUNTON", "KBOX", "BOX", "None", "41.57N", "071.08W", "36", "US"],
  ["MA BOSTON/RFC", "KTAR", "TAR", "None", "41.57N", "071.08W", "36", "US"],
  ["MA CHATHAM", "KCHH", "CHH", "74494", "41.40N", "069.58W", "16", "US"],
  ["MA CHATHAM", "None", "None", "74493", "41.40N", "069.58W", "16", "US"],
  ["MA CHATHAM", "KCQX", "CQX", "None", "41.41N", "070.00W", "19", "US"],
  ["MA CHICOPEE/WESTOVE", "KCEF", "CEF", "74491", "42.12N", "072.31W", "75", "US"],
  ["MA CHICOPEE/WESTOVE", "None", "None", "72491", "42.12N", "072.31W", "75", "US"],
  ["MA EAST MILTON", "KMQE", "MQE", "None", "42.13N", "071.07W", "199", "US"],
  ["MA FALMOUTH/OTIS AB", "KFMH", "FMH", "None", "41.38N", "070.31W", "40", "US"],
  ["MA FITCHBURG", "KFIT", "FIT", "None", "42.33N", "071.45W", "103", "US"],
  ["MA HYANNIS", "KHYA", "HYA", "None", "41.40N", "070.16W", "22", "US"],
  ["MA LAWRENCE", "KLWM", "LWM", "None", "42.43N", "071.08W", "54", "US"],
  ["MA MARSHFIELD", "KGHG", "GHG", "None", "42.06N", "070.40W", "4", "US"],
  ["MA MARTHAS VINEYARD", "KMVY", "MVY", "None", "41.24N", "070.37W", "16", "US"],
  ["MA NANTUCKET", "KACK", "ACK", "72506", "41.15N", "070.04W", "16", "US"],
  ["MA NEW BEDFORD", "KEWB", "EWB", "None", "41.41N", "070.57W", "23", "US"],
  ["MA NORTH ADAMS", "KAQW", "AQW", "None", "42.42N", "073.10W", "199", "US"],
  ["MA NORWOOD", "KOWD", "OWD", "None", "42.11N", "071.10W", "19", "US"],
  ["MA ORANGE", "KORE", "ORE", "None", "42.34N", "072.17W", "164", "US"],
  ["MA PITTSFIELD", "KPSF", "PSF", "None", "42.26N", "073.17W", "355", "US"],
  ["MA PLYMOUTH", "KPYM", "PYM", "None", "41.55N", "070.44W", "43", "US"],
  ["MA PROVINCETOWN", "KPVC", "PVC", "None", "42.04N", "070.13W", "2", "US"],
  ["MA SOUTH WEYMOUTH", "KNZW", "NZW", "None", "42.08N", "070.55W", "49", "US"],
  ["MA TAUNTON", "KTAN", "TAN", "None", "41.53N", "071.01W", "7", "US"],
  ["MA WESTFIELD", "KBAF", "BAF", "None", "42.10N", "072.43W", "83", "US"],
  ["MA WORCESTER", "KORH", "ORH", "None", "42.16N", "071.52W", "304", "US"],
  ["MA ASHBURNHAM", "K9B4", "9B4", "None", "42.39N", "071.52W", "363", "US"],
  ["MA AYER", "KAYE", "AYE", "None", "42.34N", "071.36W", "82", "US"],
  ["MA BARRE FALLS", "K8B5", "8B5", "None", "42.25N", "072.04W", "178", "US"],
  ["MA BUZZARDS BAY (L", "None", "None", "99414", "41.24N", "071.58W", "1", "US"],
  ["MA GARDNER", "KGDM", "GDM", "None", "42.34N", "071.58W", "290", "US"],
  ["MA G BARRINGTON", "KGBR", "GBR", "None", "42.12N", "073.21W", "199", "US"],
  ["MA KNIGHTVILLE", "K7B2", "7B2", "None", "42.16N", "072.52W", "192", "US"],
  ["MA MARSHFIELD", "K3B2", "3B2", "None", "42.06N", "070.40W", "4", "US"],
  ["MA NEWBURYPORT", "K2B2", "2B2", "None", "42.49N", "070.55W", "6", "US"],
  ["MA NORTH ADAMS", "K2B6", "2B6", "None", "42.42N", "073.11W", "199", "US"],
  ["MA WORTHINGTON", "KWOR", "WOR", "None", "42.23N", "072.55W", "392", "US"],
  ["MD ABERDEEN/PHILLIP", "KAPG", "APG", "74002", "39.28N", "076.10W", "18", "US"],
  ["MD ABERDEEN PRV GND", "KQAH", "QAH", "None", "39.30N", "076.34W", "5", "US"],
  ["MD ANNAPOLIS/NAVAL", "KNAK", "None", "None", "38.59N", "076.29W", "2", "US"],
  ["MD ANDREWS AFB", "KADW", "ADW", "74594", "38.49N", "076.52W", "86", "US"],
  ["MD BALTO/WASH INTL", "KBWI", "BWI", "72406", "39.10N", "076.41W", "59", "US"],
  ["MD BALTIMORE/MARTIN", "KMTN", "MTN", "None", "39.19N", "076.25W", "7", "US"],
  ["MD BALTIMORE/DWNTWN", "KDMH", "DMH", "None", "39.17N", "076.37W", "5", "US"],
  ["MD CAMBRIDGE-DORCH", "KCGE", "CGE", "None", "38.32N", "076.02W", "6", "US"],
  ["MD NSF THURMONT", "KRSP", "None", "None", "39.39N", "077.28W", "561", "US"],
  ["MD CAMP SPRING/NCEP", "KWNO", "None", "None", "38.51N", "076.56W", "50", "US"],
  ["MD CAMP SPRINGS/HPC", "KWNH", "None", "None", "38.51N", "076.56W", "50", "US"],
  ["MD CAMP SPRINGS/MPC", "KWNM", "None", "None", "38.51N", "076.56W", "50", "US"],
  ["MD CAMP SPRINGS/CPC", "KWNC", "None", "None", "38.51N", "076.56W", "50", "US"],
  ["MD CAMP SPRINGS/DBC", "KWNB", "None", "None", "38.51N", "076.56W", "50", "US"],
  ["MD CARROLL CNTY", "KDMW", "DMW", "None", "39.36N", "077.00W", "241", "US"],
  ["MD CLINTON", "KW32", "W32", "None", "38.45N", "076.56W", "76", "US"],
  ["MD COLLEGE PARK", "KCGS", "CGS", "None", "38.59N", "076.55W", "15", "US"],
  ["MD CUMBERLAND REG", "KCBE", "CBE", "None", "39.37N", "078.46W", "236", "US"],
  ["MD EASTON/NEWNAM", "KESN", "ESN", "None", "38.48N", "076.04W", "22", "US"],
  ["MD FORT MEADE", "KFME", "FME", "None", "39.05N", "076.46W", "46", "US"],
  ["MD FORT RITCHIE", "KJWX", "JWX", "None", "39.43N", "077.25W", "84", "US"],
  ["MD FREDERICK", "KFDK", "FDK", "None", "39.25N", "077.22W", "92", "US"],
  ["MD GARRETT CO", "K2G4", "2G4", "None", "39.35N", "079.20W", "894", "US"],
  ["MD GAITHERSBURG", "KGAI", "GAI", "None", "39.10N", "077.10W", "165", "US"],
  ["MD HAGERSTOWN", "KHGR", "HGR", "None", "39.42N", "077.44W", "224", "US"],
  ["MD OCEAN CITY", "KOXB", "OXB", "None", "38.19N", "075.07W", "3", "US"],
  ["MD PATUXENT RIVER", "KNHK", "NHK", "72404", "38.16N", "076.24W", "12", "US"],
  ["MD RIDGELY", "KRJD", "RJD", "None", "38.58N", "075.52W", "20", "US"],
  ["MD SALISBURY", "KSBY", "SBY", "None", "38.20N", "075.30W", "19", "US"],
  ["MD STEVENSVILLE", "KW29", "W29", "None", "38.59N", "076.20W", "15", "US"],
  ["MD ST MARYS (DUKE)", "K2W6", "2W6", "None", "38.19N", "076.33W", "44", "US"],
  ["MD CAMP DAVID", "KDVD", "DVD", "None", "39.39N", "077.28W", "152", "US"],
  ["MD FORT RITCHIE/SIT", "K43M", "43M", "None", "39.43N", "077.25W", "275", "US"],
  ["MD OCEAN CITY", "KN80", "N80", "None", "38.19N", "075.07W", "4", "US"],
  ["MD THOMAS POINT", "None", "None", "99440", "38.54N", "076.34W", "1", "US"],
  ["MD WEBSTER NAVAL", "KNUI", "NUI", "None", "38.09N", "076.26W", "7", "US"],
  ["MD WESTMINSTER", "KEMI", "EMI", "None", "39.30N", "076.59W", "152", "US"],
  ["ME AUBURN/LEWISTON", "KLEW", "LEW", "None", "44.02N", "070.16W", "88", "US"],
  ["ME AUGUSTA", "KAUG", "AUG", "None", "44.19N", "069.48W", "109", "US"],
  ["ME BANGOR", "KBGR", "BGR", "72607", "44.48N", "068.49W", "57", "US"],
  ["ME BAR HARBOR", "KBHB", "BHB", "None", "44.27N", "068.22W", "26", "US"],
  ["ME BRUNSWICK NAS", "KNHZ", "NHZ", "74392", "43.52N", "069.55W", "23", "US"],
  ["ME CARIBOU", "KCAR", "CAR", "72712", "46.52N", "068.01W", "191", "US"],
  ["ME CARIBOU", "None", "None", "72711", "46.52N", "068.01W", "191", "US"],
  ["ME CARRABASSETT", "KB21", "B21", "None", "45.05N", "070.13W", "270", "US"],
  ["ME CLAYTON LAKE", "K40B", "40B", "None", "46.37N", "069.31W", "314", "US"],
  ["ME EASTPORT", "KEPM", "EPM", "72608", "44.55N", "067.01W", "14", "US"],
  ["ME FRENCHVILLE", "KFVE", "FVE", "None", "47.17N", "068.18W", "301", "US"],
  ["ME FRYEBURG", "KIZG", "IZG", "None", "43.59N", "070.57W", "135", "US"],
  ["ME GRAY/PORTLAND", "KGYX", "GYX", "74389", "43.53N", "070.15W", "125", "US"],
  ["ME GREENVILLE", "KGNR", "GNR", "72619", "45.28N", "069.33W", "427", "US"],
  ["ME HOULTON/88D", "KCBW", "CBW", "None", "46.02N", "067.48W", "227", "US"],
  ["ME HOULTON", "KHUL", "HUL", "None", "46.07N", "067.48W", "150", "US"],
  ["ME KENNEBUNKPORT", "KENE", "ENE", "None", "43.26N", "070.37W", "123", "US"],
  ["ME MILLINOCKET", "KMLT", "MLT", "None", "45.39N", "068.42W", "123", "US"],
  ["ME OLD TOWN/DEWITT", "KOLD", "OLD", "None", "44.57N", "068.40W", "39", "US"],
  ["ME PORTLAND", "KPWM", "PWM", "72606", "43.39N", "070.18W", "15", "US"],
  ["ME PRESQUE ISLE", "KPQI", "PQI", "72713", "46.40N", "068.02W", "146", "US"],
  ["ME RANGELEY", "K8B0", "8B0", "None", "44.58N", "070.42W", "554", "US"],
  ["ME ROCKLAND/KNOX", "KRKD", "RKD", "None", "44.04N", "069.05W", "17", "US"],
  ["ME SANFORD MUNI", "KSFM", "SFM", "None", "43.23N", "070.43W", "74", "US"]]

/-- `STATIONS` (database/stations.py 1717-1816). -/
noncomputable def stations17 : List StationRow := rows! [
  ["ME WATERVILLE", "KWVL", "WVL", "None", "44.31N", "069.40W", "101", "US"],
  ["ME WISCASSET", "KIWI", "IWI", "None", "43.58N", "069.43W", "20", "US"],
  ["ME EASTPORT", "K47B", "47B", "None", "44.55N", "067.00W", "24", "US"],
  ["ME FREYBURG", "KB20", "B20", "None", "43.59N", "070.57W", "138", "US"],
  ["ME GREENVILLE", "K3B1", "3B1", "None", "45.28N", "069.33W", "427", "US"],
  ["ME HARMONY", "K2B7", "2B7", "None", "44.56N", "069.37W", "107", "US"],
  ["ME LORING AFB", "KLIZ", "LIZ", "None", "46.57N", "067.53W", "227", "US"],
  ["ME MATINICUS ISLE", "None", "None", "99437", "43.46N", "068.09W", "16", "US"],
  ["ME MOUNT DESERT RO", "None", "None", "99406", "43.58N", "068.52W", "9", "US"],
  ["ME RUMFORD", "KRUM", "RUM", "72618", "44.32N", "070.32W", "207", "US"],
  ["ME SEWEL RIDGE", "K9B6", "9B6", "None", "43.00N", "068.00W", "150", "US"],
  ["ME WISCASSET", "K9B9", "9B9", "None", "43.58N", "069.43W", "21", "US"],
  ["MI ADRIAN", "KADG", "ADG", "None", "41.52N", "084.05W", "241", "US"],
  ["MI ALMA", "KAMN", "AMN", "None", "43.19N", "084.41W", "230", "US"],
  ["MI ALPENA", "KAPN", "APN", "72639", "45.04N", "083.34W", "210", "US"],
  ["MI ANN ARBOR", "KARB", "ARB", "None", "42.13N", "083.44W", "251", "US"],
  ["MI BAD AXE", "KBAX", "BAX", "None", "43.47N", "082.59W", "234", "US"],
  ["MI BATTLE CREEK", "KBTL", "BTL", "None", "42.19N", "085.14W", "290", "US"],
  ["MI BELLAIRE", "KACB", "ACB", "None", "44.59N", "085.12W", "190", "US"],
  ["MI BEAVER ISLAND", "KSJX", "SJX", "None", "45.42N", "085.34W", "204", "US"],
  ["MI BENTON HARBOR", "KBEH", "BEH", "None", "42.08N", "086.25W", "191", "US"],
  ["MI BIG RAPIDS", "KRQB", "RQB", "None", "43.43N", "085.30W", "302", "US"],
  ["MI CADILLAC/WEXFORD", "KCAD", "CAD", "None", "44.16N", "085.25W", "398", "US"],
  ["MI CARO/TUSCOLA", "KCFS", "CFS", "None", "43.28N", "083.27W", "214", "US"],
  ["MI CHARLEVOIX", "KCVX", "CVX", "None", "45.18N", "085.16W", "204", "US"],
  ["MI CHARLOTTE", "KFPK", "FPK", "None", "42.34N", "084.49W", "272", "US"],
  ["MI CHEBOYGAN", "KSLH", "SLH", "None", "45.39N", "084.31W", "195", "US"],
  ["MI CHIPPEWA INTL", "KCIU", "CIU", "None", "46.15N", "084.28W", "244", "US"],
  ["MI COLDWATER", "KOEB", "OEB", "None", "41.55N", "085.02W", "292", "US"],
  ["MI COPPER HARBOR", "KP59", "P59", "None", "47.28N", "087.53W", "190", "US"],
  ["MI DETROIT/CITY AIR", "KDET", "DET", "None", "42.24N", "083.01W", "190", "US"],
  ["MI DETROIT/WILLOW", "KYIP", "YIP", "None", "42.14N", "083.32W", "215", "US"],
  ["MI DETROIT/WAYNE", "KDTW", "DTW", "72537", "42.14N", "083.20W", "195", "US"],
  ["MI DETROIT/WHITE LK", "KDTX", "DTX", "72632", "42.42N", "083.28W", "327", "US"],
  ["MI DETROIT/GROSSE I", "KONZ", "ONZ", "None", "42.06N", "083.09W", "180", "US"],
  ["MI DETROIT/VOR", "KDXO", "DXO", "None", "42.13N", "083.22W", "215", "US"],
  ["MI DRUMMOND IS", "KDRM", "DRM", "None", "46.00N", "083.45W", "204", "US"],
  ["MI ESCANABA", "KESC", "ESC", "72648", "45.45N", "087.05W", "187", "US"],
  ["MI FLINT", "KFNT", "FNT", "72637", "42.58N", "083.45W", "233", "US"],
  ["MI FRANKFORT", "KFKS", "FKS", "None", "44.38N", "086.12W", "193", "US"],
  ["MI FREMONT", "KFFX", "FFX", "None", "43.26N", "086.00W", "236", "US"],
  ["MI GAYLORD/ALPENA", "KAPX", "APX", "72634", "44.54N", "084.43W", "446", "US"],
  ["MI GAYLORD", "KGLR", "GLR", "None", "45.01N", "084.41W", "407", "US"],
  ["MI GRAND RAPIDS", "KGRR", "GRR", "72635", "42.53N", "085.31W", "237", "US"],
  ["MI GRAYLING AF", "KGOV", "GOV", "None", "44.41N", "084.44W", "353", "US"],
  ["MI GWINN/SAWYER", "KSAW", "SAW", "None", "46.21N", "087.24W", "372", "US"],
  ["MI HANCOCK", "KCMX", "CMX", "72744", "47.10N", "088.29W", "326", "US"],
  ["MI HARBOR SPRINGS", "KMGN", "MGN", "None", "45.26N", "084.55W", "209", "US"],
  ["MI HART/SHELBY", "KC04", "C04", "None", "41.55N", "085.02W", "279", "US"],
  ["MI HILLSDALE", "KJYM", "JYM", "None", "41.55N", "084.35W", "360", "US"],
  ["MI HOLLAND", "KBIV", "BIV", "None", "42.45N", "086.06W", "208", "US"],
  ["MI HOUGHTON LAKE", "KHTL", "HTL", "72638", "44.21N", "084.40W", "351", "US"],
  ["MI HOWELL", "KOZW", "OZW", "None", "42.37N", "083.58W", "293", "US"],
  ["MI IONIA", "KY70", "Y70", "None", "42.56N", "085.04W", "250", "US"],
  ["MI IRON MOUNTAIN", "KIMT", "IMT", "None", "45.49N", "088.07W", "349", "US"],
  ["MI IRONWOOD", "KIWD", "IWD", "None", "46.31N", "090.07W", "375", "US"],
  ["MI JACKSON/REYNOLDS", "KJXN", "JXN", "None", "42.16N", "084.28W", "305", "US"],
  ["MI KALAMAZOO", "KAZO", "AZO", "None", "42.14N", "085.33W", "272", "US"],
  ["MI LAMBERTVILLE", "KDUH", "DUH", "None", "41.44N", "083.39W", "204", "US"],
  ["MI LANSING", "KLAN", "LAN", "72539", "42.47N", "084.35W", "264", "US"],
  ["MI LAPEER", "KD95", "D95", "None", "43.04N", "083.16W", "255", "US"],
  ["MI LUDINGTON/MASON", "KLDM", "LDM", "None", "43.58N", "086.24W", "197", "US"],
  ["MI MACKINAC ISLAND", "KMCD", "MCD", "None", "45.51N", "084.38W", "226", "US"],
  ["MI MANISTEE", "KMBL", "MBL", "None", "44.16N", "086.15W", "189", "US"],
  ["MI MANISTIQUE", "KISQ", "ISQ", "None", "45.58N", "086.10W", "209", "US"],
  ["MI MANISTIQUE", "KP75", "P75", "None", "45.57N", "086.14W", "178", "US"],
  ["MI MARSHALL", "KRMY", "RMY", "None", "42.14N", "084.57W", "287", "US"],
  ["MI MASON", "KTEW", "TEW", "None", "42.34N", "084.25W", "280", "US"],
  ["MI MENOMINEE", "KMNM", "MNM", "None", "45.07N", "087.37W", "191", "US"],
  ["MI MIDLAND BARSTOW", "KIKW", "IKW", "None", "43.40N", "084.16W", "194", "US"],
  ["MI MONROE", "KTTF", "TTF", "None", "41.56N", "083.25W", "188", "US"],
  ["MI MOUNT PLEASANT", "KMOP", "MOP", "None", "43.37N", "084.44W", "230", "US"],
  ["MI MUNISING LAKESH", "KP53", "P53", "None", "46.25N", "086.39W", "187", "US"],
  ["MI MUSKEGON", "KMKG", "MKG", "72636", "43.10N", "086.14W", "191", "US"],
  ["MI NEWBERRY", "KERY", "ERY", "None", "46.18N", "085.27W", "265", "US"],
  ["MI NILES VOR", "KGIJ", "GIJ", "None", "41.46N", "086.19W", "267", "US"],
  ["MI OSCODA/WURTSMITH", "KOSC", "OSC", "None", "44.27N", "083.24W", "193", "US"],
  ["MI OSCODA (VOR)", "KASP", "ASP", "None", "44.27N", "083.24W", "193", "US"],
  ["MI OWOSSO", "KRNP", "RNP", "None", "43.00N", "084.08W", "224", "US"],
  ["MI PELLSTON", "KPLN", "PLN", "None", "45.34N", "084.48W", "217", "US"],
  ["MI PONTIAC", "KPTK", "PTK", "None", "42.40N", "083.25W", "299", "US"],
  ["MI PULLMAN VOR", "KPMM", "PMM", "None", "42.28N", "086.07W", "213", "US"],
  ["MI PORT HOPE", "KP58", "P58", "None", "44.01N", "082.48W", "179", "US"],
  ["MI PORT HURON", "KPHN", "PHN", "None", "42.55N", "082.31W", "198", "US"],
  ["MI ROGERS CITY", "KPZQ", "PZQ", "None", "45.24N", "083.49W", "204", "US"],
  ["MI SAGINAW", "KMBS", "MBS", "None", "43.32N", "084.05W", "202", "US"],
  ["MI SAGINAW/BROWNE", "KHYX", "HYX", "None", "43.26N", "083.52W", "183", "US"],
  ["MI SALEM (LANSING)", "KSVM", "SVM", "None", "42.25N", "083.36W", "290", "US"],
  ["MI SAULT STE MARIE", "KSSM", "SSM", "None", "46.28N", "084.22W", "221", "US"],
  ["MI SAULT STE MARIE", "KANJ", "ANJ", "72734", "46.28N", "084.22W", "218", "US"],
  ["MI SELFRIDGE ANGB", "KMTC", "MTC", "None", "42.37N", "082.49W", "177", "US"],
  ["MI SOUTH HAVEN", "KLWA", "LWA", "None", "42.21N", "086.15W", "203", "US"],
  ["MI STURGIS/KIRSCH", "KIRS", "IRS", "None", "41.48N", "085.26W", "282", "US"],
  ["MI THREE RIVERS", "KHAI", "HAI", "None", "41.58N", "085.36W", "251", "US"],
  ["MI TRAVERSE CIT", "KTVC", "TVC", "None", "44.44N", "085.34W", "190", "US"],
  ["MI TROY/OAKLAND", "KVLL", "VLL", "None", "42.33N", "083.11W", "222", "US"],
  ["MI WEST BRANCH", "KY31", "Y31", "None", "44.15N", "084.11W", "270", "US"],
  ["MI CARO/TUSCOLA", "K78D", "78D", "None", "43.28N", "083.27W", "214", "US"],
  ["MI CHARLOTTE", "K07G", "07G", "None", "42.34N", "084.49W", "272", "US"],
  ["MI CHEBOYGAN", "KY15", "Y15", "None", "45.39N", "084.31W", "195", "US"]]

/-- `STATIONS` (database/stations.py 1817-1916). -/
noncomputable def stations18 : List StationRow := rows! [
  ["MI DETROIT/GROSSE I", "K2G5", "2G5", "None", "42.06N", "083.10W", "180", "US"],
  ["MI FREMONT", "K3FM", "3FM", "None", "43.26N", "086.00W", "236", "US"],
  ["MI GRAYLING AF", "K3RN", "3RN", "None", "44.41N", "084.44W", "353", "US"],
  ["MI GRAYLING AF", "K55D", "55D", "None", "44.41N", "084.44W", "353", "US"],
  ["MI HARBOR SPRINGS", "KD87", "D87", "None", "45.26N", "084.55W", "209", "US"],
  ["MI HOWELL", "K3HE", "3HE", "None", "42.37N", "083.58W", "293", "US"],
  ["MI LAMBERTVILLE", "K5G9", "5G9", "None", "41.44N", "083.39W", "204", "US"],
  ["MI MACKINAC ISLAND", "KY84", "Y84", "None", "45.52N", "084.38W", "226", "US"],
  ["MI MARQUETTE", "KMQT", "MQT", "72743", "46.32N", "087.34W", "430", "US"],
  ["MI MARSHALL", "K5D8", "5D8", "None", "42.15N", "084.57W", "287", "US"],
  ["MI MASON", "K09G", "09G", "None", "42.34N", "084.25W", "280", "US"],
  ["MI MONROE", "KD92", "D92", "None", "41.56N", "083.26W", "187", "US"],
  ["MI OWOSSO", "K5D3", "5D3", "None", "43.00N", "084.08W", "224", "US"],
  ["MI PASSAGE ISLAND", "None", "None", "99409", "48.13N", "088.37W", "195", "US"],
  ["MI PECK", "KECK", "ECK", "None", "43.15N", "082.43W", "247", "US"],
  ["MI ROCK OF AGES", "None", "None", "99413", "47.52N", "089.40W", "183", "US"],
  ["MI SAULT STE MARIE", "KY62", "Y62", "None", "46.28N", "084.22W", "219", "US"],
  ["MI SOUTH HAVEN", "K0D1", "0D1", "None", "42.21N", "086.15W", "203", "US"],
  ["MI STANNARD ROCK", "None", "None", "99420", "47.10N", "087.46W", "183", "US"],
  ["MI TROY/OAKLAND", "K7D2", "7D2", "None", "42.33N", "083.11W", "222", "US"],
  ["MN AITKIN NDB", "KAIT", "AIT", "None", "46.32N", "093.40W", "367", "US"],
  ["MN ALBERT LEA", "KAEL", "AEL", "None", "43.41N", "093.22W", "383", "US"],
  ["MN ALEXANDRIA", "KAXN", "AXN", "None", "45.52N", "095.24W", "433", "US"],
  ["MN APPLETON MUNICIP", "KAQP", "AQP", "None", "45.13N", "096.00W", "311", "US"],
  ["MN AUSTIN MUNI", "KAUM", "AUM", "None", "43.40N", "092.55W", "375", "US"],
  ["MN BAUDETTE", "KBDE", "BDE", "None", "48.44N", "094.37W", "329", "US"],
  ["MN BEMIDJI", "KBJI", "BJI", "72755", "47.30N", "094.55W", "420", "US"],
  ["MN BENSON MUNI", "KBBB", "BBB", "None", "45.19N", "095.39W", "317", "US"],
  ["MN BIGFORK", "KFOZ", "FOZ", "None", "47.46N", "093.39W", "411", "US"],
  ["MN BRAINERD", "KBRD", "BRD", "None", "46.24N", "094.08W", "372", "US"],
  ["MN BUFFALO MUNI", "KCFE", "CFE", "None", "45.10N", "093.51W", "295", "US"],
  ["MN CAMBRIDGE MUNI", "KCBG", "CBG", "None", "45.34N", "093.16W", "287", "US"],
  ["MN CANBY/MYERS FLD", "KCNB", "CNB", "None", "44.44N", "096.16W", "364", "US"],
  ["MN CHANHASSEN", "KMPX", "MPX", "72649", "44.51N", "093.34W", "288", "US"],
  ["MN CLOQUET", "KCOQ", "COQ", "None", "46.42N", "092.30W", "390", "US"],
  ["MN COOK MUNI AIRPOR", "KCQM", "CQM", "None", "47.49N", "092.41W", "404", "US"],
  ["MN CRANE LAKE", "KCDD", "CDD", "None", "48.16N", "092.29W", "341", "US"],
  ["MN CROOKSTON MUNI", "KCKN", "CKN", "None", "47.51N", "096.37W", "273", "US"],
  ["MN DETROIT LAKES", "KDTL", "DTL", "None", "46.49N", "095.52W", "426", "US"],
  ["MN DODGE CENTER", "KTOB", "TOB", "None", "44.01N", "092.49W", "398", "US"],
  ["MN DULUTH (SKY HARB", "KDYT", "DYT", "None", "46.43N", "092.02W", "186", "US"],
  ["MN DULUTH", "KDLH", "DLH", "72745", "46.51N", "092.12W", "435", "US"],
  ["MN ELBOW LAKE MUNI", "KY63", "Y63", "None", "45.59N", "096.00W", "367", "US"],
  ["MN ELY MUNI", "KELO", "ELO", "None", "47.49N", "091.49W", "443", "US"],
  ["MN EVELETH MUNI", "KEVM", "EVM", "None", "47.25N", "092.30W", "421", "US"],
  ["MN FAIRMONT MUNI", "KFRM", "FRM", "None", "43.38N", "094.25W", "354", "US"],
  ["MN FARIBAULT MUNI", "KFBL", "FBL", "None", "44.20N", "093.19W", "322", "US"],
  ["MN FERGUS FALLS", "KFFM", "FFM", "72656", "46.17N", "096.09W", "361", "US"],
  ["MN FLAG ISLAND", "KFGN", "FGN", "None", "49.19N", "094.54W", "328", "US"],
  ["MN FOSSTON", "KFSE", "FSE", "None", "47.35N", "095.46W", "389", "US"],
  ["MN GLENCOE", "KGYL", "GYL", "None", "44.46N", "094.05W", "302", "US"],
  ["MN GLENWOOD", "KGHW", "GHW", "None", "45.38N", "095.19W", "425", "US"],
  ["MN GRAND MARAIS", "KGNA", "None", "None", "47.45N", "090.21W", "185", "US"],
  ["MN GRAND MARAIS", "KGRM", "GRM", "None", "47.50N", "090.23W", "505", "US"],
  ["MN GRAND MARAIS/COO", "KCKC", "None", "None", "47.50N", "090.22W", "548", "US"],
  ["MN GRAND RAPIDS", "KGPZ", "GPZ", "None", "47.13N", "093.31W", "413", "US"],
  ["MN GRANITE FALLS", "KGDB", "GDB", "None", "44.45N", "095.33W", "319", "US"],
  ["MN HALLOCK", "KHCO", "HCO", "None", "48.45N", "096.56W", "250", "US"],
  ["MN HIBBING", "KHIB", "HIB", "None", "47.23N", "092.50W", "412", "US"],
  ["MN HINCKLEY", "K04W", "04W", "None", "46.01N", "092.54W", "311", "US"],
  ["MN HUTCHINSON", "KHCD", "HCD", "None", "44.52N", "094.23W", "323", "US"],
  ["MN INTERNTNL FALLS", "KINL", "INL", "72747", "48.34N", "093.24W", "360", "US"],
  ["MN JACKSON MUNI", "KMJQ", "MJQ", "None", "43.38N", "094.58W", "441", "US"],
  ["MN LAKE ELMO", "K21D", "21D", "None", "45.00N", "092.51W", "285", "US"],
  ["MN LITCHFIELD", "KLJF", "LJF", "None", "45.06N", "094.31W", "348", "US"],
  ["MN LITTLE FALLS", "KLXL", "LXL", "None", "45.57N", "094.20W", "342", "US"],
  ["MN LONG PRAIRIE", "K14Y", "14Y", "None", "45.54N", "094.52W", "406", "US"],
  ["MN LONGVILLE", "KXVG", "XVG", "None", "46.59N", "094.12W", "407", "US"],
  ["MN LUVERNE", "KLYV", "LYV", "None", "43.37N", "096.13W", "436", "US"],
  ["MN MADISON", "KDXX", "DXX", "None", "44.59N", "096.11W", "330", "US"],
  ["MN MAHNOMEN", "K3N8", "3N8", "None", "47.16N", "095.56W", "380", "US"],
  ["MN MANKATO", "KMKT", "MKT", "None", "44.13N", "093.55W", "311", "US"],
  ["MN MARSHALL/RYAN", "KMML", "MML", "None", "44.27N", "095.49W", "359", "US"],
  ["MN MAPLE LAKE", "KMGG", "MGG", "None", "45.14N", "093.59W", "313", "US"],
  ["MN MCGREGOR/IVERSON", "KHZX", "HZX", "None", "46.37N", "093.19W", "374", "US"],
  ["MN MINNEAPOLIS", "KMSP", "MSP", "72658", "44.53N", "093.14W", "265", "US"],
  ["MN MINNEAPLS/BLAINE", "KANE", "ANE", "None", "45.09N", "093.13W", "278", "US"],
  ["MN MINNEAPOLIS/RFC", "KMSR", "MSR", "None", "44.51N", "093.34W", "256", "US"],
  ["MN MINNEAPOLS/ARTCC", "KZMP", "ZMP", "None", "44.38N", "093.11W", "256", "US"],
  ["MN MNPLS/FLYING CLD", "KFCM", "FCM", "None", "44.50N", "093.28W", "280", "US"],
  ["MN MNPLS/CRYSTAL", "KMIC", "MIC", "None", "45.04N", "093.21W", "265", "US"],
  ["MN MNPLS/AIRLAKE", "KLVN", "LVN", "None", "44.38N", "093.14W", "293", "US"],
  ["MN MONTEVIDEO", "KMVE", "MVE", "None", "44.58N", "095.43W", "315", "US"],
  ["MN MOORHEAD MUNI", "KJKJ", "JKJ", "None", "46.50N", "096.40W", "280", "US"],
  ["MN MOOSE LAKE", "KMZH", "MZH", "None", "46.25N", "092.48W", "328", "US"],
  ["MN MORA", "KJMR", "JMR", "None", "45.53N", "093.16W", "309", "US"],
  ["MN MORRIS MUNI", "KMOX", "MOX", "None", "45.34N", "095.58W", "344", "US"],
  ["MN CANBY/MYERS FLD", "K27D", "27D", "None", "44.44N", "096.16W", "363", "US"],
  ["MN NEW ULM MUNI", "KULM", "ULM", "None", "44.19N", "094.30W", "308", "US"],
  ["MN NODINE VOR", "KODI", "ODI", "None", "43.55N", "091.28W", "427", "US"],
  ["MN OLIVIA", "KOVL", "OVL", "None", "44.47N", "095.02W", "328", "US"],
  ["MN ORR", "KORB", "ORB", "None", "48.01N", "092.52W", "397", "US"],
  ["MN ORTONVILLE", "KVVV", "VVV", "None", "45.18N", "096.25W", "335", "US"],
  ["MN OWATONNA", "KOWA", "OWA", "None", "44.07N", "093.15W", "350", "US"],
  ["MN PARK RAPIDS", "KPKD", "PKD", "None", "46.54N", "095.04W", "442", "US"],
  ["MN PAYNESVILLE", "KPEX", "PEX", "None", "45.22N", "094.44W", "360", "US"],
  ["MN PINE RIVER REGIO", "KPWC", "PWC", "None", "46.43N", "094.22W", "395", "US"],
  ["MN PIPESTONE", "KPQN", "PQN", "None", "43.58N", "096.19W", "529", "US"],
  ["MN PRESTON", "KFKA", "FKA", "None", "43.41N", "092.10W", "389", "US"],
  ["MN PRINCETON MUNI", "KPNM", "PNM", "None", "45.34N", "093.36W", "298", "US"]]

/-- `STATIONS` (database/stations.py 1917-2016). -/
noncomputable def stations19 : List StationRow := rows! [
  ["MN RED WING", "KRGK", "RGK", "None", "44.35N", "092.29W", "239", "US"],
  ["MN REDWOOD FALL", "KRWF", "RWF", "None", "44.33N", "095.05W", "311", "US"],
  ["MN ROCHESTER", "KRST", "RST", "72644", "43.54N", "092.30W", "403", "US"],
  ["MN ST MARY HOSPITAL", "K9MN", "9MN", "None", "44.01N", "092.29W", "355", "US"],
  ["MN ROSEAU MUNI", "KROX", "ROX", "None", "48.51N", "095.42W", "323", "US"],
  ["MN RUSH CITY", "KROS", "ROS", "None", "45.42N", "092.57W", "281", "US"],
  ["MN SAUK CENTRE", "KD39", "D39", "None", "45.42N", "094.56W", "380", "US"],
  ["MN SILVER BAY", "KBFW", "BFW", "None", "47.15N", "091.24W", "331", "US"],
  ["MN SLAYTON", "KDVP", "DVP", "None", "43.59N", "095.47W", "495", "US"],
  ["MN SOUTH ST PAUL", "KSGS", "SGS", "None", "44.52N", "093.02W", "250", "US"],
  ["MN ST. CLOUD", "KSTC", "STC", "72655", "45.33N", "094.03W", "314", "US"],
  ["MN ST. JAMES", "KJYG", "JYG", "None", "43.59N", "094.33W", "325", "US"],
  ["MN ST. PAUL", "KSTP", "STP", "None", "44.56N", "093.03W", "219", "US"],
  ["MN STANTON", "KSYN", "SYN", "None", "44.28N", "093.01W", "280", "US"],
  ["MN STAPLES", "KSAZ", "SAZ", "None", "46.22N", "094.48W", "392", "US"],
  ["MN THIEF RIVER", "KTVF", "TVF", "None", "48.04N", "096.10W", "340", "US"],
  ["MN TOFTE (RAMOS)", "KP61", "P61", "None", "47.34N", "090.49W", "241", "US"],
  ["MN TRACY", "KTKC", "TKC", "None", "44.15N", "095.37W", "408", "US"],
  ["MN TWO HARBORS", "KTWM", "TWM", "None", "47.02N", "091.45W", "328", "US"],
  ["MN WADENA MUNI", "KADC", "ADC", "None", "46.27N", "095.13W", "418", "US"],
  ["MN WALKER", "KY49", "Y49", "None", "47.10N", "094.39W", "411", "US"],
  ["MN WARROAD", "KRRT", "RRT", "72756", "48.56N", "095.20W", "327", "US"],
  ["MN WASECA", "KACQ", "ACQ", "None", "44.04N", "093.33W", "343", "US"],
  ["MN WASKISH MUNI", "KVWU", "VWU", "None", "48.09N", "094.31W", "360", "US"],
  ["MN WHEATON NDB", "KETH", "ETH", "None", "45.47N", "096.33W", "313", "US"],
  ["MN WILLMAR/RICE", "KILL", "ILL", "None", "45.07N", "095.04W", "344", "US"],
  ["MN WILLMAR MUNI", "KBDH", "BDH", "None", "45.07N", "095.08W", "247", "US"],
  ["MN WINDOM MUNI AIRP", "KMWM", "MWM", "None", "43.54N", "095.06W", "430", "US"],
  ["MN WINONA MUNI", "KONA", "ONA", "None", "44.04N", "091.42W", "200", "US"],
  ["MN WOOD LAKE PROFIL", "None", "WDL", "74341", "44.40N", "095.26W", "319", "US"],
  ["MN WORTHINGTON", "KOTG", "OTG", "None", "43.38N", "095.34W", "480", "US"],
  ["MN BIGFORK", "K85D", "85D", "None", "47.46N", "093.39W", "411", "US"],
  ["MN BUFFALO MUNI", "K8Y2", "8Y2", "None", "45.10N", "093.51W", "295", "US"],
  ["MN CRANE LAKE", "K8Y8", "8Y8", "None", "46.16N", "092.34W", "350", "US"],
  ["MN DODGE CENTER", "K87D", "87D", "None", "44.01N", "092.49W", "398", "US"],
  ["MN DULUTH/SKY HRBR", "KD36", "D36", "None", "46.43N", "092.03W", "186", "US"],
  ["MN GLENCOE", "KY29", "Y29", "None", "44.45N", "095.55W", "302", "US"],
  ["MN GRANITE FALLS", "K1G2", "1G2", "None", "44.45N", "095.33W", "319", "US"],
  ["MN HALLOCK", "K03Y", "03Y", "None", "48.46N", "096.57W", "250", "US"],
  ["MN LITCHFIELD MUNI", "K43F", "43F", "None", "45.06N", "094.30W", "347", "US"],
  ["MN LONGVILLE", "KD33", "D33", "None", "46.59N", "094.12W", "407", "US"],
  ["MN LUVERNE", "KD19", "D19", "None", "43.37N", "096.13W", "436", "US"],
  ["MN MAPLE LAKE", "KY33", "Y33", "None", "45.14N", "093.59W", "313", "US"],
  ["MN LAKEVILLE/MNPLS", "KY12", "Y12", "None", "44.38N", "093.14W", "293", "US"],
  ["MN MCGREGOR/IVERSON", "K17Y", "17Y", "None", "46.37N", "093.19W", "374", "US"],
  ["MN MORA MUNI", "K19D", "19D", "None", "45.52N", "093.16W", "309", "US"],
  ["MN MOOREHEAD", "K99M", "99M", "None", "46.50N", "096.40W", "280", "US"],
  ["MN PAYNESVILLE", "K2P3", "2P3", "None", "45.22N", "094.45W", "360", "US"],
  ["MN PEQUOT LAKE", "KP39", "P39", "72750", "46.36N", "094.19W", "390", "US"],
  ["MN RUSH CITY", "K54Y", "54Y", "None", "45.42N", "092.57W", "281", "US"],
  ["MN SLAYTON", "K60Y", "60Y", "None", "43.59N", "095.47W", "495", "US"],
  ["MN SOUTH ST PAUL", "KD97", "D97", "None", "44.51N", "093.09W", "250", "US"],
  ["MN ST JAMES MUNI", "KD40", "D40", "None", "43.59N", "094.33W", "325", "US"],
  ["MN TRACY", "KY68", "Y68", "None", "44.15N", "095.36W", "408", "US"],
  ["MN WADENA", "K17W", "17W", "None", "46.27N", "095.12W", "415", "US"],
  ["MN WARROAD", "KD45", "D45", "None", "48.56N", "095.21W", "326", "US"],
  ["MN WARROAD", "KRAD", "RAD", "None", "48.56N", "095.20W", "327", "US"],
  ["MN AUSTIN", "QASM", "None", "None", "43.40N", "092.57W", "365", "US"],
  ["MN ALBERT LEA", "QBLM", "None", "None", "43.38N", "093.23W", "383", "US"],
  ["MN PRESTON", "QFCM", "None", "None", "43.40N", "092.00W", "318", "US"],
  ["MN ROCHESTER", "QFMM", "None", "None", "44.01N", "092.28W", "304", "US"],
  ["MN GRAND MEADOW", "QGMM", "None", "None", "43.43N", "092.30W", "403", "US"],
  ["MN HILLS", "QHIM", "None", "None", "43.31N", "096.22W", "342", "US"],
  ["MN ROCHESTER", "QJAM", "None", "None", "44.04N", "092.29W", "317", "US"],
  ["MN ROCHESTER", "QKGM", "None", "None", "44.02N", "092.28W", "319", "US"],
  ["MN LEROY", "QLEM", "None", "None", "43.31N", "092.31W", "393", "US"],
  ["MN MADISON", "QMAM", "None", "None", "45.01N", "096.11W", "340", "US"],
  ["MN WORTHINGTON", "QMOM", "None", "None", "43.38N", "095.38W", "483", "US"],
  ["MN LUVERNE", "QMSM", "None", "None", "43.40N", "096.13W", "443", "US"],
  ["MN LAMBERTON", "QRCM", "None", "None", "44.14N", "095.16W", "349", "US"],
  ["MN WEST CONCORD", "QTMM", "None", "None", "44.08N", "092.54W", "387", "US"],
  ["MN ROCHESTER", "QWLM", "None", "None", "43.59N", "092.26W", "312", "US"],
  ["MO BLOOMFIELD PROFI", "None", "BLM", "74662", "36.52N", "089.58W", "130", "US"],
  ["MO BOONVILLE", "KVER", "VER", "None", "38.57N", "092.41W", "218", "US"],
  ["MO BRANSON", "KBBG", "BBG", "None", "36.32N", "093.12W", "397", "US"],
  ["MO BRANSON WEST", "KFWB", "FWB", "None", "36.42N", "093.24W", "406", "US"],
  ["MO BUTLER", "KBUM", "BUM", "None", "38.16N", "094.29W", "271", "US"],
  ["MO CAMDENTON", "KOZS", "OZS", "None", "37.58N", "092.41W", "324", "US"],
  ["MO CAPE GIRARDEAU", "KCGI", "CGI", "None", "37.14N", "089.35W", "102", "US"],
  ["MO CHILLICOTHE", "KCDJ", "CDJ", "None", "39.49N", "093.35W", "234", "US"],
  ["MO CLINTON", "KGLY", "GLY", "None", "38.21N", "093.41W", "251", "US"],
  ["MO COLUMBIA", "KCOU", "COU", "72445", "38.49N", "092.13W", "271", "US"],
  ["MO CONWAY PROFILER", "None", "CNW", "74550", "37.31N", "092.42W", "390", "US"],
  ["MO FARMINGTON", "KFAM", "FAM", "None", "37.46N", "090.25W", "288", "US"],
  ["MO FORT LEONARD WOO", "KTBN", "TBN", "None", "37.43N", "092.07W", "353", "US"],
  ["MO GRANDVIEW", "KGVW", "GVW", "None", "38.50N", "094.34W", "337", "US"],
  ["MO HANNIBAL", "KHAE", "HAE", "None", "39.44N", "091.27W", "234", "US"],
  ["MO HARRISONVILLE", "KLRY", "LRY", "None", "38.37N", "094.21W", "279", "US"],
  ["MO JEFFERSON CITY", "KJEF", "JEF", "None", "38.36N", "092.09W", "168", "US"],
  ["MO JOPLIN", "KJLN", "JLN", "None", "37.09N", "094.30W", "299", "US"],
  ["MO LEBANON", "KLBO", "LBO", "None", "37.39N", "092.39W", "403", "US"],
  ["MO KAISER MEM", "KAIZ", "AIZ", "None", "38.06N", "092.32W", "265", "US"],
  ["MO KANSAS CITY/INTL", "KMCI", "MCI", "72446", "39.18N", "094.44W", "320", "US"],
  ["MO KANSAS CITY/DNTN", "KMKC", "MKC", "None", "39.07N", "094.36W", "227", "US"],
  ["MO KANSAS CITY/COM", "KNKA", "NKA", "None", "39.07N", "094.36W", "231", "US"],
  ["MO KANSAS CITY/AWC", "KKCI", "KCI", "None", "39.17N", "094.40W", "231", "US"],
  ["MO KANSAS CITY/RFC", "KKRF", "KRF", "None", "38.49N", "094.16W", "312", "US"],
  ["MO KANSAS CIT/ARTCC", "KZKC", "ZKC", "None", "38.51N", "094.44W", "231", "US"],
  ["MO KENNETT", "KTKX", "TKX", "None", "36.14N", "090.02W", "80", "US"],
  ["MO KIRKSVILLE", "KIRK", "IRK", "None", "40.06N", "092.33W", "293", "US"]]

end Verif
