import Verif.Model.Stations.Rows

/-
Rows of `STATIONS` (database/stations.py). Generated by tools/stations2lean.py.
-/

namespace Verif

/-- `STATIONS` (database/stations.py 3017-3116). -/
noncomputable def stations30 : List StationRow := rows! [
  ["SD BROOKINGS", "QKGS", "None", "None", "44.17N", "096.47W", "495", "US"],
  ["SD MILLER", "QLES", "None", "None", "44.31N", "098.59W", "484", "US"],
  ["SD CLEAR LAKE", "QLKS", "None", "None", "44.45N", "096.41W", "342", "US"],
  ["SD COLTON", "QLTS", "None", "None", "43.44N", "096.55W", "478", "US"],
  ["SD MADISON", "QMMS", "None", "None", "44.01N", "097.06W", "510", "US"],
  ["SD MILBANK", "QMIS", "None", "None", "45.12N", "096.38W", "354", "US"],
  ["SD MISSION", "QMSS", "None", "None", "43.18N", "100.40W", "784", "US"],
  ["SD MOBRIDGE", "QOBS", "None", "None", "45.32N", "100.26W", "511", "US"],
  ["SD PIERRE", "QPIS", "None", "None", "44.22N", "100.21W", "493", "US"],
  ["SD ELK POINT", "QPJS", "None", "None", "42.41N", "096.41W", "342", "US"],
  ["SD RAPID CITY", "QRAS", "None", "None", "44.04N", "103.13W", "998", "US"],
  ["SD RAMONA", "QRMS", "None", "None", "44.07N", "097.13W", "342", "US"],
  ["SD FSD PH", "QSAS", "None", "None", "43.32N", "096.43W", "440", "US"],
  ["SD FSD PAV", "QSBS", "None", "None", "43.32N", "096.44W", "449", "US"],
  ["SD EUREKA", "QSDS", "None", "None", "45.46N", "099.37W", "576", "US"],
  ["SD FLANDREAU", "QSNS", "None", "None", "44.03N", "096.36W", "478", "US"],
  ["SD MITCHELL", "QTMS", "None", "None", "43.43N", "098.02W", "395", "US"],
  ["SD MARTY", "QTYS", "None", "None", "43.00N", "098.09W", "441", "US"],
  ["SD VERMILLION", "QVMS", "None", "None", "42.47N", "096.56W", "373", "US"],
  ["SD WALL", "QWAS", "None", "None", "43.59N", "102.14W", "854", "US"],
  ["SD WEBSTER", "QWES", "None", "None", "45.20N", "097.31W", "342", "US"],
  ["SD WATERTOWN", "QWTS", "None", "None", "44.55N", "097.06W", "544", "US"],
  ["SD YANKTON", "QYAS", "None", "None", "42.53N", "097.23W", "382", "US"],
  ["SD HARRISBURG", "QHBS", "None", "None", "43.25N", "096.42W", "380", "US"],
  ["SD MARION", "QMRS", "None", "None", "43.23N", "097.17W", "451", "US"],
  ["SD PLATTE", "QPTS", "None", "None", "43.23N", "098.51W", "488", "US"],
  ["TN ATHENS/MCMINN", "KMMI", "MMI", "None", "35.24N", "084.34W", "266", "US"],
  ["TN BOLIVAR/WHITEHST", "KM08", "M08", "None", "35.13N", "089.03W", "152", "US"],
  ["TN BRISTOL", "KTRI", "TRI", "None", "36.29N", "082.24W", "474", "US"],
  ["TN CHATTANOOGA", "KCHA", "CHA", "72324", "35.02N", "085.12W", "210", "US"],
  ["TN CHATTANOOGA VOR", "KGQO", "GQO", "None", "34.58N", "085.09W", "210", "US"],
  ["TN CLARKSVILLE", "KCKV", "CKV", "None", "36.37N", "087.25W", "165", "US"],
  ["TN CLEVELAND REG.", "KRZR", "RZR", "None", "35.13N", "084.48W", "263", "US"],
  ["TN COLLEGEDALE", "K3M3", "3M3", "None", "35.03N", "085.01W", "262", "US"],
  ["TN COLUMBIA", "KMRC", "MRC", "None", "35.33N", "087.11W", "208", "US"],
  ["TN COVINGTON MUNI", "KM04", "M04", "None", "35.35N", "089.35W", "85", "US"],
  ["TN CROSSVILLE", "KCSV", "CSV", "None", "35.57N", "085.05W", "570", "US"],
  ["TN DAYTON", "K2A0", "2A0", "None", "35.29N", "084.56W", "219", "US"],
  ["TN DEWITT SPAIN/MEM", "KM01", "M01", "None", "35.12N", "090.03W", "69", "US"],
  ["TN DICKSON", "KM02", "M02", "None", "36.08N", "087.26W", "272", "US"],
  ["TN DYERSBURG", "KDYR", "DYR", "None", "36.00N", "089.24W", "103", "US"],
  ["TN ELIZABETHTON", "K0A9", "0A9", "None", "36.22N", "082.10W", "486", "US"],
  ["TN FAYETTEVILLE", "KFYM", "FYM", "None", "35.04N", "086.34W", "300", "US"],
  ["TN FRANKLIN WILKINS", "KM52", "M52", "None", "35.39N", "088.23W", "157", "US"],
  ["TN GALLATIN", "KM33", "M33", "None", "36.23N", "086.25W", "178", "US"],
  ["TN HOLSTON MTN VOR", "KHMV", "HMV", "None", "36.26N", "082.08W", "1317", "US"],
  ["TN HUNTINGDON", "KHZD", "HZD", "None", "36.05N", "088.28W", "151", "US"],
  ["TN JACKSBORO", "KJAU", "JAU", "None", "36.20N", "084.10W", "360", "US"],
  ["TN JACKSON", "KMKL", "MKL", "None", "35.36N", "088.55W", "128", "US"],
  ["TN KNOXVILLE", "KTYS", "TYS", "72326", "35.49N", "083.59W", "302", "US"],
  ["TN KNOXVILLE VOR", "KVXV", "VXV", "None", "35.54N", "083.53W", "302", "US"],
  ["TN KNOXVILLE", "KDKX", "DKX", "None", "35.58N", "083.52W", "254", "US"],
  ["TN LAWRENCEBURG", "K2M2", "2M2", "None", "35.14N", "087.15W", "286", "US"],
  ["TN LEBANON", "KM54", "M54", "None", "36.11N", "086.19W", "180", "US"],
  ["TN LEWISBURG", "KLUG", "LUG", "None", "35.30N", "086.48W", "219", "US"],
  ["TN LEXINGTON-PARSON", "KPVE", "PVE", "None", "35.39N", "088.11W", "149", "US"],
  ["TN LIVINGSTON", "K8A3", "8A3", "None", "36.25N", "085.19W", "419", "US"],
  ["TN MADISONVILLE", "KMNV", "MNV", "None", "35.33N", "084.23W", "314", "US"],
  ["TN MCMINNVILLE", "KRNC", "RNC", "None", "35.42N", "085.51W", "315", "US"],
  ["TN MEMPHIS", "KMEM", "MEM", "72334", "35.04N", "089.59W", "86", "US"],
  ["TN MEMPHIS/WFO", "KMEG", "MEG", "None", "35.03N", "090.00W", "101", "US"],
  ["TN MEMPHIS/ARTCC", "KZME", "ZME", "None", "35.03N", "089.59W", "101", "US"],
  ["TN MILLINGTON/88D", "KNQA", "NQA", "None", "35.21N", "089.52W", "86", "US"],
  ["TN MILLINGTON", "K2M8", "2M8", "None", "35.17N", "089.56W", "75", "US"],
  ["TN MORRISTOWN/KNOX", "KMRX", "MRX", "None", "36.10N", "083.24W", "408", "US"],
  ["TN MORRISTOWN/MOORE", "KMOR", "MOR", "None", "36.11N", "083.23W", "401", "US"],
  ["TN MURFREESBORO", "KMBT", "MBT", "None", "35.53N", "086.23W", "188", "US"],
  ["TN NASHVILLE", "KBNA", "BNA", "72327", "36.07N", "086.41W", "210", "US"],
  ["TN NASHV/JC TUNE", "KJWN", "JWN", "None", "36.11N", "086.53W", "151", "US"],
  ["TN OAK RIDGE", "KOQT", "OQT", "None", "36.01N", "084.14W", "277", "US"],
  ["TN OLD HICKORY/NASH", "KOHX", "OHX", "None", "36.15N", "086.34W", "176", "US"],
  ["TN PARIS HENRY CTY", "KPHT", "PHT", "None", "36.20N", "088.23W", "177", "US"],
  ["TN PORTLAND", "K1M5", "1M5", "None", "36.36N", "086.29W", "250", "US"],
  ["TN PULASKI", "KGZS", "GZS", "None", "35.09N", "087.03W", "210", "US"],
  ["TN ROCKWOOD", "KRKW", "RKW", "None", "35.55N", "084.41W", "508", "US"],
  ["TN SAVANNAH HARDIN", "KSNH", "SNH", "None", "35.10N", "088.13W", "144", "US"],
  ["TN SEVIERVILLE", "KGKT", "GKT", "None", "35.51N", "083.32W", "309", "US"],
  ["TN SHELBYVILLE", "KSYI", "SYI", "None", "35.34N", "086.27W", "245", "US"],
  ["TN SMYRNA", "KMQY", "MQY", "None", "36.01N", "086.31W", "166", "US"],
  ["TN SOMERVILLE", "KFYE", "FYE", "None", "35.12N", "089.24W", "133", "US"],
  ["TN SPARTA", "KSRB", "SRB", "None", "36.03N", "085.32W", "313", "US"],
  ["TN SPRINGFIELD", "KM91", "M91", "None", "36.32N", "086.55W", "216", "US"],
  ["TN TULLAHOMA", "KTHA", "THA", "None", "35.23N", "086.15W", "331", "US"],
  ["TN UNION CITY", "KUCY", "UCY", "None", "36.23N", "088.59W", "104", "US"],
  ["TN WINCHESTER", "KBGF", "BGF", "None", "35.11N", "086.04W", "299", "US"],
  ["TN MONTEAGLE", "KMGL", "MGL", "None", "35.15N", "085.51W", "586", "US"],
  ["TN SELMER", "KSZY", "SZY", "None", "35.12N", "088.30W", "100", "US"],
  ["TX DALLAS/FT WORTH", "KDFW", "DFW", "72259", "32.54N", "097.01W", "174", "US"],
  ["TX ABILENE", "KABI", "ABI", "72266", "32.25N", "099.41W", "548", "US"],
  ["TX ALICE", "KALI", "ALI", "None", "27.44N", "098.01W", "53", "US"],
  ["TX ALPINE-CASPARIS", "KE38", "E38", "None", "30.23N", "103.41W", "1376", "US"],
  ["TX AMARILLO", "KAMA", "AMA", "72363", "35.13N", "101.43W", "1093", "US"],
  ["TX ANDREWS", "KE11", "E11", "None", "32.20N", "102.32W", "967", "US"],
  ["TX ANGLETON", "KLBX", "LBX", "None", "29.07N", "095.28W", "6", "US"],
  ["TX ARLINGTON", "KGKY", "GKY", "None", "32.40N", "097.06W", "192", "US"],
  ["TX ATHENS", "KF44", "F44", "None", "32.10N", "095.50W", "135", "US"],
  ["TX AUSTIN", "KAUS", "AUS", "72254", "30.11N", "097.41W", "166", "US"],
  ["TX AUSTIN EXEC", "KEDC", "EDC", "None", "30.24N", "097.34W", "189", "US"],
  ["TX AUSTIN/MABRY", "KATT", "ATT", "None", "30.19N", "097.46W", "201", "US"],
  ["TX BAY CITY", "KBYY", "BYY", "None", "28.58N", "095.52W", "14", "US"]]

/-- `STATIONS` (database/stations.py 3117-3216). -/
noncomputable def stations31 : List StationRow := rows! [
  ["TX BEAUMONT/PORT AR", "KBPT", "BPT", "72241", "29.57N", "094.02W", "5", "US"],
  ["TX BEAUMONT", "KBMT", "BMT", "None", "30.04N", "094.13W", "10", "US"],
  ["TX BEEVILLE MUNI", "KBEA", "BEA", "None", "28.22N", "097.47W", "82", "US"],
  ["TX BIG SPRING", "KBPG", "BPG", "None", "32.13N", "101.31W", "784", "US"],
  ["TX BONHAM", "KF00", "F00", "None", "33.37N", "096.11W", "189", "US"],
  ["TX BORGER", "KBGD", "BGD", "None", "35.42N", "101.24W", "927", "US"],
  ["TX BOWIE", "K0F2", "0F2", "None", "33.36N", "097.47W", "336", "US"],
  ["TX BRADY", "KBBD", "BBD", "None", "31.11N", "099.19W", "557", "US"],
  ["TX BRECKENRIDGE", "KBKD", "BKD", "None", "32.43N", "098.53W", "392", "US"],
  ["TX BRENHAM", "K11R", "11R", "None", "30.13N", "096.22W", "94", "US"],
  ["TX BRIDGEPORT", "KXBP", "None", "None", "33.11N", "097.50W", "260", "US"],
  ["TX BROWNSVILLE", "KBRO", "BRO", "72250", "25.55N", "097.25W", "7", "US"],
  ["TX BROWNWOOD", "KBWD", "BWD", "None", "31.48N", "098.57W", "423", "US"],
  ["TX BRYAN", "KCFD", "CFD", "None", "30.43N", "096.20W", "112", "US"],
  ["TX BURNET", "KBMQ", "BMQ", "None", "30.44N", "098.14W", "389", "US"],
  ["TX CALDWELL", "KRWV", "RWV", "None", "30.31N", "096.42W", "119", "US"],
  ["TX CANADIAN", "KHHF", "HHF", "None", "35.54N", "100.24W", "712", "US"],
  ["TX CAMERON", "KT35", "T35", "None", "30.53N", "096.58W", "123", "US"],
  ["TX CARRIZO SPRINGS", "KCZT", "CZT", "None", "28.31N", "099.49W", "183", "US"],
  ["TX CASTROVILLE MUNI", "KCVB", "CVB", "None", "29.21N", "098.51W", "235", "US"],
  ["TX CENTER", "KF17", "F17", "None", "31.50N", "094.09W", "92", "US"],
  ["TX CENTEX (AUSTIN)", "KCWK", "CWK", "None", "30.23N", "097.32W", "181", "US"],
  ["TX CHILDRESS", "KCDS", "CDS", "None", "34.26N", "100.17W", "594", "US"],
  ["TX CISCO", "KGZN", "GZN", "None", "32.22N", "099.01W", "522", "US"],
  ["TX CLARKSVILLE", "KLBR", "LBR", "None", "33.36N", "095.04W", "134", "US"],
  ["TX CLEBURNE", "KCPT", "CPT", "None", "32.21N", "097.26W", "260", "US"],
  ["TX CLEVELAND MUNI", "K6R3", "6R3", "None", "30.21N", "095.00W", "46", "US"],
  ["TX COLEMAN MUNI", "KCOM", "COM", "None", "31.50N", "099.24W", "517", "US"],
  ["TX COLLEGE STATION", "KCLL", "CLL", "None", "30.35N", "096.22W", "96", "US"],
  ["TX COLUMBUS", "K66R", "66R", "None", "29.38N", "096.31W", "74", "US"],
  ["TX COMANCHE", "KMKN", "MKN", "None", "31.55N", "098.36W", "423", "US"],
  ["TX CONROE", "KCXO", "CXO", "None", "30.21N", "095.25W", "75", "US"],
  ["TX CORPUS CHRISTI", "KCRP", "CRP", "72251", "27.46N", "097.30W", "14", "US"],
  ["TX C. CHRISTI NAS", "KNGP", "NGP", "None", "27.41N", "097.16W", "6", "US"],
  ["TX CORSICANA", "KCRS", "CRS", "None", "32.02N", "096.24W", "133", "US"],
  ["TX COTULLA", "KCOT", "COT", "None", "28.27N", "099.13W", "140", "US"],
  ["TX CROCKETT", "KDKR", "DKR", "None", "31.18N", "095.24W", "106", "US"],
  ["TX DALHART", "KDHT", "DHT", "None", "36.01N", "102.33W", "1217", "US"],
  ["TX DALLAS/LOVE FLD", "KDAL", "DAL", "72258", "32.51N", "096.51W", "158", "US"],
  ["TX DALLAS/ARTCC", "KZFW", "ZFW", "None", "32.50N", "097.04W", "182", "US"],
  ["TX DALLAS/REDBIRD", "KRBD", "RBD", "None", "32.41N", "096.52W", "203", "US"],
  ["TX DALLAS NAS/HENSL", "KNBE", "NBE", "None", "32.43N", "096.58W", "150", "US"],
  ["TX DALLAS/ADDISON", "KADS", "ADS", "None", "32.58N", "096.49W", "196", "US"],
  ["TX DECATUR", "KLUD", "LUD", "None", "33.15N", "097.35W", "319", "US"],
  ["TX DEL RIO", "KDRT", "DRT", "72261", "29.22N", "100.55W", "313", "US"],
  ["TX DENTON", "KDTO", "DTO", "None", "33.12N", "097.12W", "196", "US"],
  ["TX DIMMIT", "KFTN", "FTN", "None", "28.13N", "100.01W", "236", "US"],
  ["TX DRYDEN", "K6R6", "6R6", "None", "30.03N", "102.13W", "701", "US"],
  ["TX DUMAS/MOORE CTY", "KDUX", "DUX", "None", "35.51N", "102.01W", "1129", "US"],
  ["TX DYESS AFB/ABILEN", "KDYS", "DYS", "69019", "32.25N", "099.50W", "545", "US"],
  ["TX EAGLE LAKE", "KELA", "ELA", "None", "29.36N", "096.19W", "57", "US"],
  ["TX EAGLE PASS", "K5T9", "5T9", "None", "28.51N", "100.31W", "270", "US"],
  ["TX EASTLAND", "KETN", "ETN", "None", "32.25N", "098.49W", "448", "US"],
  ["TX EDINBURG INTL", "KEBG", "EBG", "None", "26.27N", "098.08W", "24", "US"],
  ["TX EL PASO", "KELP", "ELP", "72270", "31.49N", "106.23W", "1197", "US"],
  ["TX FALFURRIAS", "KBKS", "BKS", "None", "27.12N", "098.07W", "34", "US"],
  ["TX FORT BLISS", "KBIF", "BIF", "None", "31.51N", "106.23W", "1203", "US"],
  ["TX FORT STOCKTON", "KFST", "FST", "None", "30.55N", "102.55W", "918", "US"],
  ["TX FORT WORTH", "KFTW", "FTW", "None", "32.50N", "097.22W", "214", "US"],
  ["TX FORT WORTH", "KFWD", "FWD", "72249", "32.49N", "097.17W", "196", "US"],
  ["TX FORT WORTH/RFC", "KFWR", "FWR", "None", "32.50N", "097.18W", "211", "US"],
  ["TX FORT WORTH/88D", "KFWS", "FWS", "None", "32.34N", "097.18W", "208", "US"],
  ["TX FORT WORTH NAS", "KNFW", "NFW", "None", "32.47N", "097.26W", "198", "US"],
  ["TX FREDERICKSBURG", "KT82", "T82", "None", "30.15N", "098.55W", "517", "US"],
  ["TX FT WORTH/ALLIANC", "KAFW", "AFW", "None", "32.58N", "097.19W", "233", "US"],
  ["TX FT HOOD/KILLEEN", "KHLR", "HLR", "72257", "31.08N", "097.43W", "283", "US"],
  ["TX GALVESTON", "KGLS", "GLS", "72242", "29.16N", "094.52W", "6", "US"],
  ["TX GAINESVILLE", "KGLE", "GLE", "None", "33.39N", "097.12W", "256", "US"],
  ["TX UVALDE/GARNER F", "KUVA", "UVA", "None", "29.13N", "099.45W", "287", "US"],
  ["TX GATESVILLE", "KGOP", "GOP", "None", "31.25N", "097.48W", "276", "US"],
  ["TX GEORGETOWN", "KGTU", "GTU", "None", "30.41N", "097.41W", "240", "US"],
  ["TX GIDDINGS-LEE", "KGYB", "GYB", "None", "30.10N", "096.59W", "148", "US"],
  ["TX GILMER MUNI", "KJXI", "JXI", "None", "32.42N", "094.57W", "127", "US"],
  ["TX GONZALES MUNI", "KT20", "T20", "None", "29.31N", "097.28W", "108", "US"],
  ["TX GRAHAM MUNI", "KRPH", "RPH", "None", "33.07N", "098.33W", "342", "US"],
  ["TX GRANBURY MUNI", "KGDJ", "GDJ", "None", "32.27N", "097.49W", "237", "US"],
  ["TX GRAND PRAIRIE", "KGPM", "GPM", "None", "32.42N", "097.03W", "180", "US"],
  ["TX GREENVILLE/MAJOR", "KGVT", "GVT", "None", "33.04N", "096.04W", "163", "US"],
  ["TX GUADALUPE PASS", "KGDP", "GDP", "72262", "31.50N", "104.49W", "1692", "US"],
  ["TX HAMILTON MUNI", "KMNZ", "MNZ", "None", "31.40N", "098.09W", "396", "US"],
  ["TX HARLINGEN", "KHRL", "HRL", "None", "26.14N", "097.39W", "10", "US"],
  ["TX HEARNE MUNI", "KLHB", "LHB", "None", "30.52N", "096.37W", "87", "US"],
  ["TX HEBBRONVILLE", "KHBV", "HBV", "None", "27.21N", "098.44W", "202", "US"],
  ["TX HENDERSON RUSK C", "KRFI", "RFI", "None", "32.09N", "094.51W", "135", "US"],
  ["TX HEREFORD MUNI", "KHRX", "HRX", "None", "34.52N", "102.20W", "1154", "US"],
  ["TX HILLSBORO", "KINJ", "INJ", "None", "32.05N", "097.06W", "209", "US"],
  ["TX HONDO", "KHDO", "HDO", "None", "29.22N", "099.10W", "282", "US"],
  ["TX HORSESHOE BAY", "KDZB", "DZB", "None", "30.32N", "098.22W", "334", "US"],
  ["TX HOUSTON/DW HOOKS", "KDWH", "DWH", "None", "30.04N", "095.33W", "46", "US"],
  ["TX HOUSTON/HOBBY", "KHOU", "HOU", "None", "29.38N", "095.17W", "36", "US"],
  ["TX HOUSTON", "KLVJ", "LVJ", "None", "29.31N", "095.15W", "12", "US"],
  ["TX HOUSTON EXEC", "KTME", "TME", "None", "29.48N", "095.54W", "51", "US"],
  ["TX HOUSTON/INTNL", "KIAH", "IAH", "72243", "30.00N", "095.22W", "36", "US"],
  ["TX HOUSTON/DICKINSN", "KHGX", "HGX", "None", "29.28N", "095.05W", "5", "US"],
  ["TX HOUSTON/ELLINGTO", "KEFD", "EFD", "None", "29.36N", "095.10W", "10", "US"],
  ["TX HOUSTON/SUGAR LA", "KSGR", "SGR", "None", "29.37N", "095.39W", "2", "US"],
  ["TX HOUSTON/ARTCC", "KZHU", "ZHU", "None", "29.39N", "095.17W", "34", "US"],
  ["TX HOUSTON/UNIV", "KMCJ", "MCJ", "None", "29.43N", "095.24W", "69", "US"],
  ["TX HOUSTON/SOUTHWST", "KAXH", "AXH", "None", "29.31N", "095.29W", "21", "US"],
  ["TX WEST HOUSTON", "KIWS", "IWS", "None", "29.49N", "095.40W", "34", "US"]]

/-- `STATIONS` (database/stations.py 3217-3316). -/
noncomputable def stations32 : List StationRow := rows! [
  ["TX INGLESIDE/TP MCC", "KTFP", "TFP", "None", "27.55N", "097.13W", "6", "US"],
  ["TX INGLESIDE/TP MCC", "KT43", "T43", "None", "27.55N", "097.13W", "6", "US"],
  ["TX JOHNSON SPACE C", "KWNJ", "None", "None", "29.38N", "095.17W", "36", "US"],
  ["TX HUNTSVILLE", "KUTS", "UTS", "None", "30.45N", "095.35W", "104", "US"],
  ["TX JACKSONVILLE", "KJSO", "JSO", "None", "31.52N", "095.13W", "206", "US"],
  ["TX JASPER", "KJAS", "JAS", "None", "30.53N", "094.02W", "65", "US"],
  ["TX JAYTON PROFILER", "None", "JTN", "74735", "33.00N", "100.58W", "707", "US"],
  ["TX JUNCTION", "KJCT", "JCT", "74740", "30.30N", "099.46W", "522", "US"],
  ["TX KELLY AFB", "KSKF", "SKF", "None", "29.22N", "098.34W", "210", "US"],
  ["TX GRAY/FT HOOD", "KGRK", "GRK", "None", "31.04N", "097.50W", "309", "US"],
  ["TX GRANGER KGRK 88D", "None", "None", "None", "30.43N", "097.24W", "164", "US"],
  ["TX KERRVILLE", "KERV", "ERV", "None", "29.59N", "099.05W", "510", "US"],
  ["TX KICKAPOO", "KCWC", "CWC", "None", "33.51N", "098.29W", "305", "US"],
  ["TX KILLEEN MUNI", "KILE", "ILE", "None", "31.04N", "097.40W", "258", "US"],
  ["TX KINGSVILLE NAS", "KNQI", "NQI", "None", "27.30N", "097.49W", "15", "US"],
  ["TX KINGSVILLE", "KIKG", "IKG", "None", "27.33N", "098.02W", "40", "US"],
  ["TX LA GRANGE", "K3T5", "3T5", "None", "29.54N", "096.57W", "99", "US"],
  ["TX LAGO VISTA", "KRYW", "RYW", "None", "30.30N", "097.58W", "376", "US"],
  ["TX LAMPASAS", "KLZZ", "LZZ", "None", "31.06N", "098.12W", "371", "US"],
  ["TX LANCASTER", "KLNC", "LNC", "None", "32.35N", "096.43W", "153", "US"],
  ["TX LAREDO", "KLRD", "LRD", "72252", "27.33N", "099.28W", "155", "US"],
  ["TX LAUGHLIN AFB", "KDLF", "DLF", "None", "29.22N", "100.46W", "330", "US"],
  ["TX LAUGHLIN AFB/88D", "KDFX", "DFX", "None", "29.16N", "100.17W", "345", "US"],
  ["TX LEDBETTER PROFIL", "None", "LDB", "72246", "30.05N", "096.47W", "122", "US"],
  ["TX LLANO", "KAQO", "AQO", "None", "30.47N", "098.40W", "336", "US"],
  ["TX LONGVIEW", "KGGG", "GGG", "72247", "32.23N", "094.43W", "107", "US"],
  ["TX LUBBOCK", "KLBB", "LBB", "72267", "33.40N", "101.49W", "993", "US"],
  ["TX LUBBOCK/WFO", "KLUB", "LUB", "None", "33.39N", "101.49W", "996", "US"],
  ["TX LUFKIN", "KLFK", "LFK", "None", "31.14N", "094.45W", "88", "US"],
  ["TX MARFA", "KMRF", "MRF", "72264", "30.22N", "104.01W", "1481", "US"],
  ["TX MARSHALL", "KASL", "ASL", "None", "32.31N", "094.18W", "109", "US"],
  ["TX MAVERICK (DFW)", "KTTT", "TTT", "None", "32.52N", "097.02W", "165", "US"],
  ["TX MC GREGOR", "KPWG", "PWG", "None", "31.28N", "097.19W", "180", "US"],
  ["TX MCALLEN", "KMFE", "MFE", "None", "26.11N", "098.15W", "38", "US"],
  ["TX MCKINNEY", "KTKI", "TKI", "None", "33.11N", "096.35W", "179", "US"],
  ["TX MESQUITE", "KHQZ", "HQZ", "None", "32.45N", "096.32W", "136", "US"],
  ["TX MEXIA LIMESTONE", "KLXY", "LXY", "None", "31.38N", "096.31W", "166", "US"],
  ["TX MIDLAND", "KMAF", "MAF", "72265", "31.57N", "102.12W", "874", "US"],
  ["TX MIDLAND AIRPARK", "KMDD", "MDD", "None", "32.02N", "102.06W", "854", "US"],
  ["TX MIDLOTHIAN/WAX", "KJWY", "JWY", "None", "32.27N", "096.55W", "217", "US"],
  ["TX MINEOLA/QUITMAN", "KJDD", "JDD", "None", "32.45N", "095.30W", "132", "US"],
  ["TX MINERAL WELLS", "KMWL", "MWL", "None", "32.47N", "098.04W", "284", "US"],
  ["TX MOUNT PLEASANT", "KOSA", "OSA", "None", "33.06N", "094.58W", "111", "US"],
  ["TX NACOGDOCHES", "KOCH", "OCH", "None", "31.34N", "094.43W", "108", "US"],
  ["TX NEW BRAUNFELS", "KBAZ", "BAZ", "None", "29.43N", "098.03W", "195", "US"],
  ["TX NEW BRAUNFEL 88D", "KEWX", "EWX", "None", "29.42N", "098.02W", "193", "US"],
  ["TX ODESSA", "KODO", "ODO", "None", "31.55N", "102.24W", "902", "US"],
  ["TX ORANGE GROVE", "KNOG", "NOG", "None", "27.54N", "098.03W", "78", "US"],
  ["TX ORANGE", "KORG", "ORG", "None", "30.04N", "093.48W", "4", "US"],
  ["TX OZONA", "KOZA", "OZA", "None", "30.44N", "101.12W", "726", "US"],
  ["TX PALACIOS", "KPSX", "PSX", "None", "28.43N", "096.15W", "5", "US"],
  ["TX PALESTINE PROFIL", "None", "PAT", "74750", "31.46N", "095.42W", "119", "US"],
  ["TX PALESTINE MUNI", "KPSN", "PSN", "None", "31.47N", "095.42W", "129", "US"],
  ["TX PAMPA", "KPPA", "PPA", "None", "35.37N", "101.00W", "989", "US"],
  ["TX PAMPA M VISTA R", "KBPC", "BPC", "None", "35.53N", "101.02W", "845", "US"],
  ["TX PARIS/COX FIELD", "KPRX", "PRX", "None", "33.37N", "095.27W", "167", "US"],
  ["TX PECOS CITY", "KPEQ", "PEQ", "None", "31.23N", "103.31W", "797", "US"],
  ["TX PERRYTON", "KPYX", "PYX", "None", "36.25N", "100.45W", "889", "US"],
  ["TX PHILLIPS OIL", "K25T", "25T", "None", "26.56N", "094.41W", "10", "US"],
  ["TX PLAINVIEW", "KPVW", "PVW", "None", "34.10N", "101.43W", "1028", "US"],
  ["TX PLEASANTON MUNI", "KPEZ", "PEZ", "None", "28.57N", "098.31W", "132", "US"],
  ["TX PORT ARANSAS", "KRAS", "RAS", "None", "27.49N", "097.05W", "2", "US"],
  ["TX PORT ISABEL", "KPIL", "PIL", "None", "26.10N", "097.20W", "5", "US"],
  ["TX PORT LAVACA", "KPKV", "None", "None", "28.39N", "096.41W", "9", "US"],
  ["TX PRESIDIO/LELY IN", "KPRS", "PRS", "None", "29.38N", "104.21W", "896", "US"],
  ["TX RANDOLPH AFB", "KRND", "RND", "None", "29.31N", "098.16W", "232", "US"],
  ["TX RANGER", "K6P9", "6P9", "None", "32.26N", "098.36W", "450", "US"],
  ["TX REESE AFB/LUBBOC", "KREE", "REE", "None", "33.36N", "102.02W", "1017", "US"],
  ["TX ROBSTOWN/NUECES", "KRBO", "RBO", "None", "27.47N", "097.41W", "24", "US"],
  ["TX ROCKPORT", "KRKP", "RKP", "None", "28.05N", "097.03W", "6", "US"],
  ["TX ROCKSPRINGS", "KECU", "ECU", "None", "29.57N", "100.10W", "725", "US"],
  ["TX ROCKWALL", "KF46", "F46", "None", "32.56N", "096.26W", "176", "US"],
  ["TX SABINE PASS", "KRPE", "RPE", "99426", "29.41N", "093.57W", "3", "US"],
  ["TX SAN ANGELO", "KSJT", "SJT", "72263", "31.22N", "100.30W", "576", "US"],
  ["TX S ANTONIO/STINSN", "KSSF", "SSF", "None", "29.20N", "098.28W", "176", "US"],
  ["TX SAN ANTONIO", "KSAT", "SAT", "72253", "29.32N", "098.28W", "243", "US"],
  ["TX S ANTONIO-BOERNE", "K5C1", "5C1", "None", "29.43N", "098.42W", "423", "US"],
  ["TX SAN MARCOS", "KHYI", "HYI", "None", "29.53N", "097.52W", "182", "US"],
  ["TX SAN MARCOS", "KT98", "T98", "None", "29.53N", "097.52W", "182", "US"],
  ["TX SANDERSON (RAMOS", "KP07", "P07", "74730", "30.10N", "102.25W", "865", "US"],
  ["TX SEMINOLE", "KGNC", "GNC", "None", "32.41N", "102.39W", "1010", "US"],
  ["TX SHACKELFORD/DYES", "KDYX", "DYX", "None", "32.32N", "099.15W", "462", "US"],
  ["TX SHERMAN/DENISON", "KGYI", "GYI", "None", "33.43N", "096.40W", "228", "US"],
  ["TX SNYDER/WINSTON", "KSNK", "SNK", "None", "32.42N", "100.57W", "741", "US"],
  ["TX SONORA", "KSOA", "SOA", "None", "30.35N", "100.39W", "652", "US"],
  ["TX SOUTH PADRE IS", "KSPL", "SPL", "None", "26.04N", "097.09W", "4", "US"],
  ["TX SPOFFORD", "KT70", "T70", "None", "29.07N", "100.28W", "306", "US"],
  ["TX STEPHENVILLE", "KSEP", "SEP", "72260", "32.13N", "098.10W", "402", "US"],
  ["TX SULPHUR SPRINGS", "KSLR", "SLR", "None", "33.10N", "095.37W", "149", "US"],
  ["TX SWEETWATER", "KSWW", "SWW", "None", "32.28N", "100.28W", "727", "US"],
  ["TX TEMPLE/MILLER", "KTPL", "TPL", "None", "31.08N", "097.24W", "208", "US"],
  ["TX TERRELL", "KTRL", "TRL", "None", "32.43N", "096.16W", "145", "US"],
  ["TX TEXICO (VOR)", "KTXO", "TXO", "None", "34.30N", "102.50W", "1353", "US"],
  ["TX TYLER", "KTYR", "TYR", "None", "32.22N", "095.24W", "165", "US"],
  ["TX VERNON WILBARGER", "KF05", "F05", "None", "34.14N", "099.17W", "386", "US"],
  ["TX VICTORIA", "KVCT", "VCT", "72255", "28.52N", "096.56W", "31", "US"],
  ["TX WACO", "KACT", "ACT", "72256", "31.37N", "097.14W", "151", "US"],
  ["TX WACO/TSTI", "KCNW", "CNW", "None", "31.38N", "097.04W", "156", "US"],
  ["TX WHARTON", "KARM", "ARM", "None", "29.15N", "096.09W", "31", "US"],
  ["TX WICHITA FALL", "KSPS", "SPS", "72351", "33.59N", "098.30W", "308", "US"]]

/-- `STATIONS` (database/stations.py 3317-3416). -/
noncomputable def stations33 : List StationRow := rows! [
  ["TX WINK", "KINK", "INK", "None", "31.47N", "103.12W", "855", "US"],
  ["TX WESLACO MIDVALLY", "KT65", "T65", "None", "26.11N", "097.58W", "21", "US"],
  ["TX ZAPATA", "KAPY", "APY", "None", "26.58N", "099.15W", "129", "US"],
  ["TX BRAZOS 133B OILP", "KBBF", "BBF", "None", "27.50N", "096.01W", "36", "US"],
  ["TX GALVESTON424 OIL", "KGVX", "GVX", "None", "28.35N", "094.59W", "39", "US"],
  ["TX H ISLAND376 OILP", "KHQI", "HQI", "None", "27.56N", "093.40W", "26", "US"],
  ["TX BRAZOS 451 OILP", "KBQX", "BQX", "None", "28.30N", "095.43W", "34", "US"],
  ["TX MUSTANG IS31 OIL", "KMIU", "MIU", "None", "27.17N", "096.44W", "36", "US"],
  ["TX MUSTANG A85A OIL", "KMZG", "MZG", "None", "27.44N", "096.11W", "29", "US"],
  ["TX W CAMERON 368A", "KCRH", "CRH", "None", "28.55N", "093.18W", "34", "US"],
  ["TX E BREAKS BOOMVNG", "KVAF", "VAF", "None", "27.21N", "094.38W", "46", "US"],
  ["TX ALAMINOS CANYON", "KHHV", "HHV", "None", "26.56N", "094.41W", "25", "US"],
  ["TX ARLINGTON", "KF54", "F54", "None", "32.40N", "097.06W", "185", "US"],
  ["TX AUSTIN/BERGSTROM", "KBSM", "BSM", "None", "30.11N", "097.41W", "172", "US"],
  ["TX BAY CITY", "K3R1", "3R1", "None", "28.58N", "095.52W", "14", "US"],
  ["TX BEEVILLE", "KNIR", "NIR", "None", "28.22N", "097.40W", "20", "US"],
  ["TX BIG SPRING", "KBGS", "BGS", "None", "32.13N", "101.31W", "781", "US"],
  ["TX BRIDGEPORT", "K1F9", "1F9", "None", "33.11N", "097.50W", "260", "US"],
  ["TX BURNET MUNICIPAL", "KT27", "T27", "None", "30.44N", "098.13W", "389", "US"],
  ["TX CARMEN", "KCRM", "CRM", "None", "36.36N", "098.37W", "200", "US"],
  ["TX CARSWELL", "KAWN", "AWN", "None", "32.47N", "097.26W", "198", "US"],
  ["TX CASTROVILLE MUNI", "KT89", "T89", "None", "29.21N", "098.51W", "235", "US"],
  ["TX CLARKSVILLE", "K7F6", "7F6", "None", "33.36N", "095.04W", "134", "US"],
  ["TX CLEBURNE", "KF18", "F18", "None", "32.21N", "097.26W", "260", "US"],
  ["TX COMANCHE", "K7F9", "7F9", "None", "31.55N", "098.36W", "423", "US"],
  ["TX CROCKETT", "KT56", "T56", "None", "31.18N", "095.24W", "106", "US"],
  ["TX EAST ADDITION", "K5R0", "5R0", "None", "28.13N", "093.45W", "26", "US"],
  ["TX EDINBURG", "K25R", "25R", "None", "26.27N", "098.08W", "24", "US"],
  ["TX FT WORTH/NAS", "KFWH", "FWH", "None", "32.47N", "097.26W", "198", "US"],
  ["TX FREEPORT", "K6T5", "6T5", "None", "28.59N", "095.19W", "2", "US"],
  ["TX GATESVILLE", "K05F", "05F", "None", "31.25N", "097.48W", "276", "US"],
  ["TX GEORGETOWN", "KT04", "T04", "None", "30.40N", "097.40W", "240", "US"],
  ["TX GIDDINGS-LEE", "K62H", "62H", "None", "30.10N", "096.59W", "148", "US"],
  ["TX GILMER MUNI", "K4F4", "4F4", "None", "32.42N", "094.57W", "127", "US"],
  ["TX GRANBURY MUNI", "KF55", "F55", "None", "32.27N", "097.49W", "237", "US"],
  ["TX HEARNE MUNI", "KT72", "T72", "None", "30.52N", "096.37W", "87", "US"],
  ["TX HENDERSON RUSK C", "KF12", "F12", "None", "32.09N", "094.51W", "135", "US"],
  ["TX HILLSBORO MUNI", "K5T5", "5T5", "None", "32.05N", "097.06W", "209", "US"],
  ["TX HOUSTON", "KT02", "T02", "None", "29.31N", "095.15W", "12", "US"],
  ["TX KICKAPOO", "KT47", "T47", "None", "33.51N", "098.29W", "305", "US"],
  ["TX LAGO VISTA", "K5R3", "5R3", "None", "30.30N", "097.58W", "376", "US"],
  ["TX LLANO", "K6R9", "6R9", "None", "30.47N", "098.40W", "336", "US"],
  ["TX MC GREGOR", "KF60", "F60", "None", "31.28N", "097.19W", "180", "US"],
  ["TX MINEOLA/QUITMAN", "K3T1", "3T1", "None", "32.45N", "095.30W", "132", "US"],
  ["TX NEW BRAUNFELS", "K3R5", "3R5", "None", "29.43N", "098.03W", "195", "US"],
  ["TX ODESSA", "KE02", "E02", "None", "31.55N", "102.24W", "902", "US"],
  ["TX PORT ARANSAS", "K2R8", "2R8", "None", "27.49N", "097.05W", "2", "US"],
  ["TX PORT ISABEL", "KT31", "T31", "None", "26.10N", "097.20W", "5", "US"],
  ["TX PORT ARANSAS", "None", "None", "99411", "27.49N", "097.57W", "5", "US"],
  ["TX PORT LAVACA", "KT97", "T97", "None", "28.39N", "096.41W", "9", "US"],
  ["TX PORT MANSFIELD", "KT05", "T05", "None", "26.34N", "097.26W", "3", "US"],
  ["TX PRESIDIO/LELY IN", "KT77", "T77", "None", "29.38N", "104.21W", "896", "US"],
  ["TX ROBSTOWN NUECES", "KT53", "T53", "None", "27.47N", "097.41W", "24", "US"],
  ["TX SABINE PASS", "K28T", "28T", "None", "29.42N", "093.57W", "5", "US"],
  ["TX SEMINOLE", "K31F", "31F", "None", "32.41N", "102.39W", "1010", "US"],
  ["TX SHAMROCK", "K2F1", "2F1", "None", "35.12N", "100.15W", "1000", "US"],
  ["TX SHEPPARD AFB", "KSHP", "SHP", "None", "33.58N", "098.28W", "314", "US"],
  ["TX SHERMAN/DENISON", "KF39", "F39", "None", "33.43N", "096.40W", "228", "US"],
  ["TX SONORA", "KE29", "E29", "None", "30.35N", "100.39W", "652", "US"],
  ["TX SOUTH BRAZOS", "KT46", "T46", "None", "28.01N", "095.52W", "31", "US"],
  ["TX WHARTON", "K5R5", "5R5", "None", "29.15N", "096.09W", "31", "US"],
  ["TX ZAPATA", "KT86", "T86", "None", "26.58N", "099.15W", "129", "US"],
  ["TX E BREAKS 165", "KEMK", "EMK", "None", "27.49N", "094.19W", "26", "US"],
  ["TX GUNNISON 668", "KGUL", "GUL", "None", "27.18N", "093.32W", "30", "US"],
  ["TX N PADRE 975", "KOPM", "OPM", "None", "26.50N", "096.56W", "25", "US"],
  ["TX FRIONA 2NE", "XFAS", "None", "None", "34.39N", "102.41W", "1222", "US"],
  ["TX DIMMITT 2NE", "XDMS", "None", "None", "34.34N", "102.18W", "1181", "US"],
  ["TX TULIA 2NE", "XTIS", "None", "None", "34.33N", "101.44W", "1060", "US"],
  ["TX SILVERTON 7E", "XSVS", "None", "None", "34.27N", "101.11W", "976", "US"],
  ["TX MULESHOE 2S", "XMUS", "None", "None", "34.12N", "102.45W", "1160", "US"],
  ["TX AMHERST 1NE", "XAMH", "None", "None", "34.01N", "102.24W", "1112", "US"],
  ["TX PLAINVIEW 1S", "XPVS", "None", "None", "34.11N", "101.42W", "1024", "US"],
  ["TX FLOYDADA 2NE", "XFLS", "None", "None", "34.00N", "101.20W", "969", "US"],
  ["TX ROARING S. 3N", "XRRS", "None", "None", "33.56N", "100.51W", "797", "US"],
  ["TX MORTON 1NE", "XMNS", "None", "None", "33.44N", "102.44W", "1144", "US"],
  ["TX LEVELLAND 4S", "XLDS", "None", "None", "33.32N", "102.22W", "1066", "US"],
  ["TX LUBBOCK 12W", "XREE", "None", "None", "33.37N", "102.04W", "1020", "US"],
  ["TX RALLS 1SE", "XRLS", "None", "None", "33.40N", "101.23W", "944", "US"],
  ["TX PLAINS 3N", "XPPS", "None", "None", "33.14N", "102.50W", "1131", "US"],
  ["TX BROWNFIELD 2S", "XBWS", "None", "None", "33.09N", "102.16W", "1010", "US"],
  ["TX TAHOKA 3NE", "XTAS", "None", "None", "33.12N", "101.47W", "946", "US"],
  ["TX POST 1NE", "XPTS", "None", "None", "33.12N", "101.22W", "792", "US"],
  ["TX SEMINOLE 2N", "XSMS", "None", "None", "32.44N", "102.38W", "1010", "US"],
  ["TX SLATON 2NE", "XSLS", "None", "None", "33.27N", "101.37W", "934", "US"],
  ["TX ABERNATHY 5NE", "XARS", "None", "None", "33.53N", "101.45W", "1016", "US"],
  ["TX OLTON 6S", "XONS", "None", "None", "34.06N", "102.07W", "1087", "US"],
  ["TX O'DONNELL 1N", "XOES", "None", "None", "32.59N", "101.50W", "931", "US"],
  ["TX SEAGRAVES 1SW", "XSGV", "None", "None", "32.56N", "102.34W", "1024", "US"],
  ["TX LAMESA 2SE", "XLES", "None", "None", "32.42N", "101.56W", "901", "US"],
  ["TX HART 3N", "XHRS", "None", "None", "34.25N", "102.06W", "1126", "US"],
  ["TX GAIL 2SE", "XGGS", "None", "None", "32.45N", "101.25W", "778", "US"],
  ["TX WHITE R LAKE 6NW", "XWVS", "None", "None", "33.32N", "101.10W", "824", "US"],
  ["TX GRAHAM 5SW", "XGHS", "None", "None", "33.05N", "101.31W", "869", "US"],
  ["TX SUNDOWN 8SW", "XSDS", "None", "None", "33.23N", "102.37W", "1105", "US"],
  ["TX ANTON 6S", "XAOS", "None", "None", "33.44N", "102.11W", "1038", "US"],
  ["TX FLUVANNA 3W", "XFVS", "None", "None", "32.54N", "101.12W", "825", "US"],
  ["TX SPUR 1W", "XSPR", "None", "None", "33.29N", "100.53W", "697", "US"],
  ["TX LUBBOCK 3W", "XLBW", "None", "None", "33.35N", "101.54W", "985", "US"],
  ["TX GUTHRIE 10W", "XPFS", "None", "None", "33.34N", "100.29W", "609", "US"],
  ["TX CLARENDON", "XCES", "None", "None", "34.55N", "100.56W", "864", "US"]]

/-- `STATIONS` (database/stations.py 3417-3516). -/
noncomputable def stations34 : List StationRow := rows! [
  ["TX PADUCA 10SW", "XPAD", "None", "None", "33.53N", "100.24W", "616", "US"],
  ["TX SNYDER 3E", "XSYS", "None", "None", "32.43N", "100.52W", "741", "US"],
  ["TX MEMPHIS 1NE", "XMES", "None", "None", "34.44N", "100.32W", "627", "US"],
  ["TX JAYTON 1S", "XJTS", "None", "None", "33.14N", "100.34W", "613", "US"],
  ["TX PAMPA 2E", "XPMS", "None", "None", "35.32N", "100.56W", "974", "US"],
  ["TX HEREFORD 2NW", "XHES", "None", "None", "34.50N", "102.25W", "1182", "US"],
  ["TX ASPERMONT 3NE", "XASR", "None", "None", "33.10N", "100.12W", "530", "US"],
  ["TX GOODLETT 3W", "XGDS", "None", "None", "34.21N", "099.56W", "501", "US"],
  ["TX MCLEAN 1E", "XMCS", "None", "None", "35.14N", "100.34W", "873", "US"],
  ["TX DENVER CITY 7W", "XDVS", "None", "None", "32.59N", "102.56W", "1113", "US"],
  ["TX LAKE ALAN HENRY", "XAHS", "None", "None", "33.05N", "101.03W", "705", "US"],
  ["TX WOLFFORTH 6SW", "XWOS", "None", "None", "33.25N", "102.03W", "1008", "US"],
  ["TX ANDREWS 2E", "XANS", "None", "None", "32.19N", "102.31W", "966", "US"],
  ["TX TURKEY 2WSW", "XTUR", "None", "None", "34.23N", "100.56W", "747", "US"],
  ["TX CHILDRESS 2NNE", "XCXS", "None", "None", "34.27N", "100.12W", "593", "US"],
  ["TX NORTHFIELD 1S", "XNOR", "None", "None", "34.16N", "100.36W", "637", "US"],
  ["TX SAN ANGELO 7NW", "XASU", "None", "None", "31.33N", "100.31W", "597", "US"],
  ["TX ST LAWRENCE 5SW", "XST1", "None", "None", "31.39N", "101.36W", "821", "US"],
  ["TX HASKELL 1NW", "XHA1", "None", "None", "33.10N", "099.45W", "488", "US"],
  ["TX WALL 1E", "XWA1", "None", "None", "31.22N", "100.17W", "572", "US"],
  ["TX SEYMOUR 3NW", "XSE1", "None", "None", "33.38N", "099.17W", "397", "US"],
  ["TX COMANCHE SPRGS", "X3RF", "None", "None", "33.59N", "099.57W", "501", "US"],
  ["TX KNOX CITY 3NW", "XKN1", "None", "None", "33.27N", "099.52W", "448", "US"],
  ["TX PINE SPRNGS GMNP", "XGU1", "None", "None", "31.53N", "104.49W", "1698", "US"],
  ["TX ODELL 4ENE", "XOD1", "None", "None", "34.22N", "099.21W", "418", "US"],
  ["TX COYANOSA 2N", "XCO1", "None", "None", "31.17N", "103.04W", "783", "US"],
  ["TX QUITAQUE 3NNW", "XQU1", "None", "None", "34.25N", "101.04W", "808", "US"],
  ["TX BIG LAKE 1WNW", "XBI1", "None", "None", "31.12N", "101.28W", "824", "US"],
  ["TX JUNCTION 1SSW", "XJU1", "None", "None", "30.28N", "099.47W", "525", "US"],
  ["TX WEINERT 2NNE", "XWE1", "None", "None", "33.21N", "099.40W", "458", "US"],
  ["TX CANADIAN 6E", "XCA1", "None", "None", "35.55N", "100.17W", "739", "US"],
  ["TX PALO DURO CANYN", "XPD1", "None", "None", "34.59N", "101.42W", "1055", "US"],
  ["TX BOOTLEG 11WNW", "XBO1", "None", "None", "34.53N", "102.59W", "1348", "US"],
  ["TX STERLING COUNTY", "XSC1", "None", "None", "31.50N", "101.03W", "718", "US"],
  ["TX CLAUDE 12SW", "XCL1", "None", "None", "34.59N", "101.30W", "1052", "US"],
  ["TX PERSIMMON GAP", "XPG1", "None", "None", "29.40N", "103.11W", "875", "US"],
  ["TX AMARILLO 7SSE", "XAM1", "None", "None", "35.07N", "101.48W", "1101", "US"],
  ["TX UMBARGER 3NNE", "XUM1", "None", "None", "34.59N", "102.05W", "1145", "US"],
  ["TX LOMAX 1SSE", "XLO1", "None", "None", "32.06N", "101.38W", "765", "US"],
  ["TX AMARILLO 9NNE", "XAM2", "None", "None", "35.20N", "101.48W", "1020", "US"],
  ["TX AIKEN 3WSW", "XAI1", "None", "None", "34.08N", "101.34W", "1012", "US"],
  ["TX MERTZON", "XME1", "None", "None", "31.18N", "100.49W", "663", "US"],
  ["TX SWEETWATER 11SW", "XSW1", "None", "None", "32.21N", "100.32W", "758", "US"],
  ["TX AMARILLO 15NNW", "XAM3", "None", "None", "35.25N", "101.56W", "1013", "US"],
  ["TX BOYS RANCH 1WSW", "XBY1", "None", "None", "35.32N", "102.16W", "977", "US"],
  ["TX FORT CHADBOURNE", "XCH1", "None", "None", "32.02N", "100.15W", "613", "US"],
  ["TX CLYDE 2WNW", "XCL2", "None", "None", "32.25N", "099.32W", "615", "US"],
  ["TX CROWELL 1E", "XCR1", "None", "None", "33.59N", "099.43W", "452", "US"],
  ["TX DELL CITY 1N", "XDC1", "None", "None", "31.57N", "105.12W", "1131", "US"],
  ["TX DOZIER 3W", "XDO1", "None", "None", "35.05N", "100.23W", "691", "US"],
  ["TX HESPERUS 4SSW", "XFL1", "None", "None", "37.14N", "108.03W", "2361", "US"],
  ["TX GOODNIGHT", "XGO1", "None", "None", "35.02N", "101.11W", "962", "US"],
  ["TX FORT LANCASTER", "XLA1", "None", "None", "30.40N", "101.41W", "648", "US"],
  ["TX FORT MCKAVETT", "XMC1", "None", "None", "32.21N", "100.32W", "664", "US"],
  ["TX MCCAMEY 1SSW", "XMC4", "None", "None", "31.07N", "102.14W", "742", "US"],
  ["TX MENARD 2NW", "XMD1", "None", "None", "30.56N", "099.49W", "587", "US"],
  ["TX NEW HOME", "XNH1", "None", "None", "33.20N", "101.55W", "989", "US"],
  ["TX PANHANDLE 1SSW", "XPA1", "None", "None", "35.20N", "101.23W", "1054", "US"],
  ["TX CANYON 16ESE", "XPD2", "None", "None", "34.56N", "101.38W", "865", "US"],
  ["TX SIERRA BLANCA", "XSB1", "None", "None", "31.10N", "105.21W", "1390", "US"],
  ["TX STAMFORD 5ESE", "XST2", "None", "None", "32.55N", "099.43W", "473", "US"],
  ["TX STINNETT 1NNW", "XST3", "None", "None", "35.51N", "101.27W", "1013", "US"],
  ["TX TARZAN 2WNW", "XTA1", "None", "None", "32.19N", "102.00W", "866", "US"],
  ["TX VIGO PARK", "XVP1", "None", "None", "34.39N", "101.30W", "1035", "US"],
  ["TX WELCH", "XWE2", "None", "None", "32.56N", "102.08W", "951", "US"],
  ["TX SNYDER 3SSW", "XWT1", "None", "None", "32.41N", "100.56W", "726", "US"],
  ["TX THROCKMORTON 1SW", "XTH1", "None", "None", "33.10N", "099.11W", "420", "US"],
  ["TX COLORADO CITY", "XCO2", "None", "None", "32.27N", "100.55W", "672", "US"],
  ["TX HAPPY", "XHA2", "None", "None", "34.45N", "101.51W", "1101", "US"],
  ["TX ADRIAN 6WSW", "XAD1", "None", "None", "35.15N", "102.46W", "1299", "US"],
  ["TX PALO DURO 4E", "XPD3", "None", "None", "34.49N", "101.07W", "790", "US"],
  ["TX EARTH 9WSW", "XEA1", "None", "None", "34.11N", "102.33W", "1144", "US"],
  ["TX RALLS 1SE", "XRAS", "None", "None", "33.40N", "101.23W", "944", "US"],
  ["UT SALT LAKE CITY", "KSLC", "SLC", "72572", "40.46N", "111.58W", "1286", "US"],
  ["UT BLANDING", "KBDG", "BDG", "72472", "37.35N", "109.29W", "1789", "US"],
  ["UT BONNEVILLE", "KBVL", "BVL", "None", "40.43N", "113.45W", "1286", "US"],
  ["UT BRIGHAM CITY", "KBMC", "BMC", "None", "41.33N", "112.04W", "1290", "US"],
  ["UT BRYCE CANYON", "KBCE", "BCE", "None", "37.42N", "112.09W", "2312", "US"],
  ["UT CEDAR CITY", "KCDC", "CDC", "None", "37.42N", "113.06W", "1714", "US"],
  ["UT CEDAR CITY/88D", "KICX", "ICX", "None", "37.35N", "112.52W", "3231", "US"],
  ["UT DELTA", "KDTA", "DTA", "72479", "39.18N", "112.30W", "1402", "US"],
  ["UT DUGWAY PRVG GROU", "KDPG", "DPG", "74003", "40.12N", "112.55W", "1326", "US"],
  ["UT EAGLE RANGE", "KU16", "U16", "72430", "41.03N", "113.04W", "1292", "US"],
  ["UT EAGLE RANGE", "None", "None", "69430", "41.03N", "113.04W", "1292", "US"],
  ["UT ELDER COUNTY/SLC", "KMTX", "MTX", "None", "41.16N", "112.27W", "1969", "US"],
  ["UT GREEN RIVER RANG", "KU28", "U28", "72477", "39.00N", "110.10W", "1241", "US"],
  ["UT HANKSVILLE", "KHVE", "HVE", "72473", "38.25N", "110.42W", "1350", "US"],
  ["UT HEBER/RUSS MCDON", "KHCR", "HCR", "None", "40.29N", "111.26W", "1718", "US"],
  ["UT HILL AFB/OGDEN", "KHIF", "HIF", "None", "41.07N", "111.58W", "1459", "US"],
  ["UT LOGAN", "KLGU", "LGU", "None", "41.47N", "111.51W", "1355", "US"],
  ["UT MILFORD", "KMLF", "MLF", "72475", "38.25N", "113.01W", "1534", "US"],
  ["UT MOAB", "KCNY", "CNY", "None", "38.46N", "109.45W", "1390", "US"],
  ["UT MYTON", "KMTU", "MTU", "None", "40.08N", "110.07W", "1625", "US"],
  ["UT OGDEN", "KOGD", "OGD", "72575", "41.12N", "112.01W", "1353", "US"],
  ["UT PRICE", "KPUC", "PUC", "72470", "39.37N", "110.45W", "2091", "US"],
  ["UT PROVO MUNI", "KPVU", "PVU", "None", "40.13N", "111.43W", "1369", "US"],
  ["UT RICHFIELD", "KRIF", "RIF", "None", "38.44N", "112.06W", "1616", "US"],
  ["UT ROOSEVELT", "K74V", "74V", "74420", "40.17N", "110.03W", "1578", "US"],
  ["UT SAINT GEORGE", "KSGU", "SGU", "None", "37.04N", "113.31W", "896", "US"],
  ["UT SAINT GEORGE", "KDXZ", "DXZ", "None", "37.05N", "113.36W", "896", "US"]]

/-- `STATIONS` (database/stations.py 3517-3616). -/
noncomputable def stations35 : List StationRow := rows! [
  ["UT SALT LAKE MUNI", "KU42", "U42", "None", "40.37N", "111.59W", "1402", "US"],
  ["UT SALT LAKE/ARTCC", "KZLC", "ZLC", "None", "40.46N", "111.57W", "1287", "US"],
  ["UT SLC RFC=KSLR", "None", "None", "None", "40.46N", "111.57W", "1287", "US"],
  ["UT TOOELE", "KT62", "T62", "None", "40.19N", "112.17W", "1628", "US"],
  ["UT TOOELE", "KTVY", "TVY", "None", "40.37N", "112.21W", "1317", "US"],
  ["UT VERNAL", "KVEL", "VEL", "None", "40.27N", "109.31W", "1604", "US"],
  ["UT WENDOVER (AUT)", "KENV", "ENV", "72581", "40.43N", "114.01W", "1292", "US"],
  ["UT BLANDING", "K4BL", "4BL", "None", "37.37N", "109.28W", "1840", "US"],
  ["UT BULLFROG(AWRS)", "KU17", "U17", "None", "37.30N", "110.42W", "1110", "US"],
  ["UT DELTA", "KU24", "U24", "None", "39.20N", "112.35W", "1414", "US"],
  ["UT HANKSVILLE", "K4HV", "4HV", "None", "38.22N", "110.43W", "1314", "US"],
  ["UT HEBER/RUSS MCDON", "K36U", "36U", "None", "40.29N", "111.26W", "1718", "US"],
  ["UT JOSEPH", "K7LI", "7LI", "None", "38.38N", "112.12W", "1829", "US"],
  ["UT ROOSEVELT", "KU67", "U67", "None", "40.17N", "109.58W", "1556", "US"],
  ["VA ROANOKE", "KROA", "ROA", "72411", "37.19N", "079.58W", "362", "US"],
  ["VA ABINGDON", "KVJI", "VJI", "None", "36.40N", "082.01W", "631", "US"],
  ["VA BLACKSBURG/VA T.", "KBCB", "BCB", "None", "37.13N", "080.25W", "650", "US"],
  ["VA BLACKSTONE ARMY", "KBKT", "BKT", "None", "37.04N", "077.57W", "134", "US"],
  ["VA BROOKNEAL", "K0V4", "0V4", "None", "37.09N", "079.01W", "182", "US"],
  ["VA BUMPASS", "K7W4", "7W4", "None", "37.58N", "077.45W", "107", "US"],
  ["VA CASSANOVA VOR", "KCSN", "CSN", "None", "38.38N", "077.52W", "148", "US"],
  ["VA CHARLOTTESVILLE", "KCHO", "CHO", "None", "38.08N", "078.27W", "192", "US"],
  ["VA CHASE CITY", "KCXE", "CXE", "None", "36.47N", "078.30W", "154", "US"],
  ["VA CHESAPEAKE", "KCPK", "CPK", "99402", "36.40N", "076.19W", "6", "US"],
  ["VA CLARKSVILLE", "KW63", "W63", "None", "36.36N", "078.34W", "128", "US"],
  ["VA CREWE", "KW81", "W81", "None", "37.11N", "078.06W", "127", "US"],
  ["VA CULPEPER", "KCJR", "CJR", "None", "38.32N", "077.52W", "97", "US"],
  ["VA DANVILLE", "KDAN", "DAN", "None", "36.34N", "079.20W", "175", "US"],
  ["VA DUBLIN/NEW RIV", "KPSK", "PSK", "None", "37.07N", "080.40W", "642", "US"],
  ["VA EMPORIA", "KEMV", "EMV", "None", "36.41N", "077.29W", "39", "US"],
  ["VA FARMVILLE", "KFVX", "FVX", "None", "37.21N", "078.25W", "125", "US"],
  ["VA FENTRESS NAVAL", "KNFE", "NFE", "None", "36.42N", "076.08W", "5", "US"],
  ["VA FORT BELVOIR/DAV", "KDAA", "DAA", "None", "38.43N", "077.10W", "21", "US"],
  ["VA FORT ROYAL", "KFRR", "FRR", "None", "38.55N", "078.15W", "215", "US"],
  ["VA FRANKLIN/J B ROS", "KFKN", "FKN", "None", "36.42N", "076.54W", "12", "US"],
  ["VA FREDERICKSB/SHAN", "KEZF", "EZF", "None", "38.16N", "077.27W", "26", "US"],
  ["VA FT EUSTIS/FELKER", "KFAF", "FAF", "None", "37.07N", "076.37W", "4", "US"],
  ["VA GORDONSVILLE", "KGVE", "GVE", "None", "38.09N", "078.10W", "138", "US"],
  ["VA HILLSVILLE/GALAX", "KHLX", "HLX", "None", "36.46N", "080.49W", "834", "US"],
  ["VA HOT SPRINGS/INGA", "KHSP", "HSP", "None", "37.57N", "079.49W", "1156", "US"],
  ["VA JONESVILLE", "K0VG", "0VG", "None", "36.39N", "083.13W", "430", "US"],
  ["VA KENBRIDGE", "KW31", "W31", "None", "36.58N", "078.11W", "161", "US"],
  ["VA LANGLEY AFB/HAMP", "KLFI", "LFI", "74598", "37.04N", "076.22W", "3", "US"],
  ["VA LAWRENCEVILLE", "KLVL", "LVL", "None", "36.46N", "077.48W", "100", "US"],
  ["VA LEESBURG/GODFREY", "KJYO", "JYO", "None", "39.04N", "077.34W", "119", "US"],
  ["VA LOUISA", "KLKU", "LKU", "None", "38.01N", "077.58W", "150", "US"],
  ["VA LURAY", "KLUA", "LUA", "None", "38.40N", "078.30W", "275", "US"],
  ["VA LYNCHBURG", "KLYH", "LYH", "72410", "37.19N", "079.12W", "295", "US"],
  ["VA MANASSAS MUNI", "KHEF", "HEF", "None", "38.43N", "077.31W", "59", "US"],
  ["VA MARION / WYTHEVI", "KMKJ", "MKJ", "None", "36.53N", "081.20W", "780", "US"],
  ["VA MARTINSVILLE", "KMTV", "MTV", "None", "36.38N", "080.01W", "287", "US"],
  ["VA MELFA/ACCOMACK", "KMFV", "MFV", "None", "37.38N", "075.46W", "15", "US"],
  ["VA NEW MARKET", "K8W2", "8W2", "None", "38.39N", "078.43W", "293", "US"],
  ["VA NEWPORT NEWS", "KPHF", "PHF", "None", "37.08N", "076.30W", "12", "US"],
  ["VA NORFOLK NAS/CHAM", "KNGU", "NGU", "None", "36.55N", "076.16W", "5", "US"],
  ["VA NORFOLK", "KORF", "ORF", "72308", "36.54N", "076.12W", "14", "US"],
  ["VA NORFOLK/WAKEFLD", "KAKQ", "AKQ", "None", "36.59N", "077.00W", "34", "US"],
  ["VA NORFOLK/HAMPTON", "KPVG", "PVG", "None", "36.47N", "076.27W", "7", "US"],
  ["VA OCEANA NAS/SOUCE", "KNTU", "NTU", "None", "36.49N", "076.01W", "7", "US"],
  ["VA ORANGE", "KOMH", "OMH", "None", "38.15N", "078.03W", "142", "US"],
  ["VA PETERSBURG", "KPTB", "PTB", "None", "37.10N", "077.31W", "59", "US"],
  ["VA QUANTICO MCAF", "KNYG", "NYG", "None", "38.30N", "077.17W", "4", "US"],
  ["VA QUINTON", "KW96", "W96", "None", "37.30N", "077.08W", "37", "US"],
  ["VA RICHMOND/HANOVER", "KOFP", "OFP", "None", "37.42N", "077.26W", "62", "US"],
  ["VA RICHMOND/CHESTER", "KFCI", "FCI", "None", "37.24N", "077.31W", "72", "US"],
  ["VA RICHMOND", "KRIC", "RIC", "72401", "37.31N", "077.19W", "50", "US"],
  ["VA ROANOKE/BLACKSBG", "KRNK", "RNK", "72318", "37.12N", "080.24W", "648", "US"],
  ["VA ROANOKE/FLOYD CY", "KFCX", "FCX", "None", "37.01N", "080.16W", "874", "US"],
  ["VA SALUDA", "KW75", "W75", "None", "37.36N", "076.27W", "10", "US"],
  ["VA SOUTH BOSTON", "KW78", "W78", "None", "36.43N", "078.51W", "128", "US"],
  ["VA SOUTH HILL/MECKL", "KAVC", "AVC", "None", "36.41N", "078.02W", "135", "US"],
  ["VA STAFFORD REGNL", "KRMN", "RMN", "None", "38.24N", "077.27W", "65", "US"],
  ["VA STAUNTON/SHENAND", "KSHD", "SHD", "None", "38.16N", "078.54W", "366", "US"],
  ["VA STERLING", "KLWX", "LWX", "None", "38.59N", "077.29W", "89", "US"],
  ["VA SUFFOLK", "KSFQ", "SFQ", "None", "36.41N", "076.36W", "22", "US"],
  ["VA RICHLANDS", "KJFZ", "JFZ", "None", "37.04N", "081.48W", "809", "US"],
  ["VA TAPPAHANNOCK", "KXSA", "XSA", "None", "37.52N", "076.54W", "42", "US"],
  ["VA WALLOPS ISLAND", "KWAL", "WAL", "72402", "37.56N", "075.28W", "14", "US"],
  ["VA WARRENTON", "KHWY", "HWY", "None", "38.35N", "077.43W", "103", "US"],
  ["VA WASH DC/DULLES", "KIAD", "IAD", "72403", "38.56N", "077.27W", "93", "US"],
  ["VA WAYNESBORO", "KW13", "W13", "None", "38.05N", "078.57W", "438", "US"],
  ["VA WEST POINT", "KFYJ", "FYJ", "None", "37.31N", "076.46W", "7", "US"],
  ["VA WILLIAMSBURG", "KJGG", "JGG", "None", "37.14N", "076.43W", "15", "US"],
  ["VA WINCHESTER RGNL", "KOKV", "OKV", "None", "39.08N", "078.09W", "222", "US"],
  ["VA WISE/LONESOME PI", "KLNP", "LNP", "None", "36.58N", "082.31W", "817", "US"],
  ["VA LURAY", "KW45", "W45", "None", "38.40N", "078.30W", "275", "US"],
  ["VA RICHLANDS", "K6V3", "6V3", "None", "37.04N", "081.48W", "809", "US"],
  ["VA VOLENS", "KVQN", "VQN", "None", "36.57N", "078.59W", "280", "US"],
  ["VA WARRENTON", "KW66", "W66", "None", "38.35N", "077.43W", "103", "US"],
  ["VA WILLIAMSBURG", "KW94", "W94", "None", "37.18N", "076.38W", "11", "US"],
  ["VT BENNINGTON", "KDDH", "DDH", "72516", "42.54N", "073.15W", "244", "US"],
  ["VT BURLINGTON", "KBTV", "BTV", "72617", "44.28N", "073.09W", "105", "US"],
  ["VT COLCHESTER/88D", "KCXX", "CXX", "None", "44.31N", "073.10W", "97", "US"],
  ["VT HIGHGATE", "KFSO", "FSO", "None", "44.56N", "073.06W", "70", "US"],
  ["VT LYNDONVILLE", "KCDA", "CDA", "None", "44.34N", "072.01W", "363", "US"],
  ["VT MIDDLEBURY", "K6B0", "6B0", "None", "43.59N", "073.06W", "149", "US"],
  ["VT MORRISVILLE", "KMVL", "MVL", "None", "44.32N", "072.37W", "234", "US"],
  ["VT MONTPELIER/BARRE", "KMPV", "MPV", "None", "44.12N", "072.34W", "343", "US"],
  ["VT NEWPORT STATE", "KEFK", "EFK", "72612", "44.53N", "072.14W", "284", "US"],
  ["VT RUTLAND STATE", "KRUT", "RUT", "None", "43.31N", "072.57W", "240", "US"]]

/-- `STATIONS` (database/stations.py 3617-3716). -/
noncomputable def stations36 : List StationRow := rows! [
  ["VT SPRINGFIELD", "KVSF", "VSF", "None", "43.21N", "072.31W", "175", "US"],
  ["VT ST. JOHNSBURY", "K1V4", "1V4", "72614", "44.25N", "072.01W", "210", "US"],
  ["VT BALL MOUNTAIN", "K8B3", "8B3", "None", "43.07N", "072.48W", "345", "US"],
  ["VT BENNINGTON", "K5B5", "5B5", "None", "42.53N", "073.15W", "244", "US"],
  ["VT CANAAN", "KVT1", "VT1", "None", "44.59N", "071.30W", "317", "US"],
  ["VT JAY PEAK", "KJAY", "JAY", "None", "44.56N", "072.32W", "572", "US"],
  ["VT LYNDONVILLE", "K6B8", "6B8", "None", "44.34N", "072.01W", "363", "US"],
  ["VT POWNAL", "KPOW", "POW", "None", "42.47N", "073.13W", "348", "US"],
  ["VT SOUTH LINCOLN", "KSOL", "SOL", "None", "44.04N", "072.58W", "616", "US"],
  ["VT WEST BURKE", "KVT2", "VT2", "None", "44.39N", "071.59W", "274", "US"],
  ["VT WEST DOVER", "KWDO", "WDO", "None", "42.56N", "072.51W", "527", "US"],
  ["VT WILMINGTON", "KMNW", "MNW", "74483", "42.52N", "072.07W", "482", "US"],
  ["WA ARLINGTON MUNI", "KAWO", "AWO", "None", "48.10N", "122.10W", "42", "US"],
  ["WA BELLINGHAM", "KBLI", "BLI", "None", "48.48N", "122.32W", "50", "US"],
  ["WA WHATCOM (BLI)", "KHUH", "HUH", "None", "48.57N", "122.35W", "26", "US"],
  ["WA BREMERTON NTNL", "KPWT", "PWT", "None", "47.30N", "122.45W", "147", "US"],
  ["WA BURLINGTON/MT V", "KBVS", "BVS", "74200", "48.28N", "122.25W", "43", "US"],
  ["WA CHEHALIS CENTRAL", "KCLS", "CLS", "None", "46.41N", "122.59W", "54", "US"],
  ["WA COLVILLE MUNICIP", "KCQV", "CQV", "None", "48.32N", "117.52W", "572", "US"],
  ["WA DEER PARK", "KDEW", "DEW", "72787", "47.58N", "117.26W", "674", "US"],
  ["WA EASTSOUND/ORCAS", "KORS", "ORS", "None", "48.42N", "122.55W", "9", "US"],
  ["WA ELLENSBURG", "KELN", "ELN", "None", "47.02N", "120.32W", "519", "US"],
  ["WA EPHRATA", "KEPH", "EPH", "None", "47.18N", "119.31W", "383", "US"],
  ["WA EVERETT", "KPAE", "PAE", "None", "47.55N", "122.17W", "180", "US"],
  ["WA FAIRCHILD AFB", "KSKA", "SKA", "None", "47.37N", "117.39W", "750", "US"],
  ["WA FORT LEWIS/GRAY", "KGRF", "GRF", "74207", "47.04N", "122.34W", "92", "US"],
  ["WA FRIDAY HARBOR", "KFHR", "FHR", "None", "48.31N", "123.02W", "32", "US"],
  ["WA GRAYS HARBOR", "KLGX", "LGX", "None", "47.07N", "124.06W", "103", "US"],
  ["WA HANFORD", "KHMS", "HMS", "72784", "46.34N", "119.35W", "223", "US"],
  ["WA HOQUIAM", "KHQM", "HQM", "None", "46.58N", "123.56W", "7", "US"],
  ["WA KELSO LONGVEIW", "KKLS", "KLS", "None", "46.07N", "122.54W", "5", "US"],
  ["WA MOSES LAKE", "KMWH", "MWH", "None", "47.12N", "119.19W", "362", "US"],
  ["WA OAK HARBOR AIRPA", "KOKH", "OKH", "72796", "48.15N", "122.40W", "59", "US"],
  ["WA OLYMPIA", "KOLM", "OLM", "72792", "46.58N", "122.54W", "58", "US"],
  ["WA OMAK", "KOMK", "OMK", "72789", "48.28N", "119.31W", "395", "US"],
  ["WA PASCO", "KPSC", "PSC", "None", "46.16N", "119.07W", "121", "US"],
  ["WA PORT ANGELES", "KCLM", "CLM", "None", "48.07N", "123.30W", "85", "US"],
  ["WA PORT TOWNSEND", "K0S9", "0S9", "None", "48.03N", "122.49W", "37", "US"],
  ["WA PULLMAN/MOSCOW", "KPUW", "PUW", "None", "46.45N", "117.07W", "773", "US"],
  ["WA PUYALLUP/THUN", "KPLU", "PLU", "None", "47.06N", "122.17W", "164", "US"],
  ["WA QUILLAYUTE", "KUIL", "UIL", "72797", "47.56N", "124.33W", "54", "US"],
  ["WA RENTON", "KRNT", "RNT", "None", "47.30N", "122.13W", "21", "US"],
  ["WA RICHLAND", "KRLD", "RLD", "None", "46.18N", "119.18W", "121", "US"],
  ["WA SEATTLE/BOEING", "KBFI", "BFI", "None", "47.33N", "122.19W", "4", "US"],
  ["WA SEATTLE/METRO", "KSEA", "SEA", "72793", "47.27N", "122.19W", "136", "US"],
  ["WA SEATTLE/WFO", "KSEW", "SEW", "None", "47.41N", "122.15W", "7", "US"],
  ["WA SEATTLE/ARTCC", "KZSE", "ZSE", "None", "47.17N", "122.11W", "99", "US"],
  ["WA SEATTLE/CAMANO I", "KATX", "ATX", "None", "48.12N", "122.30W", "151", "US"],
  ["WA SHELTON", "KSHN", "SHN", "None", "47.14N", "123.08W", "82", "US"],
  ["WA SPOKANE", "KOTX", "OTX", "72786", "47.41N", "117.38W", "727", "US"],
  ["WA SPOKANE/FELTS", "KSFF", "SFF", "None", "47.41N", "117.19W", "609", "US"],
  ["WA SPOKANE/METRO", "KGEG", "GEG", "72785", "47.37N", "117.32W", "735", "US"],
  ["WA STAMPEDE PASS", "KSMP", "SMP", "None", "47.17N", "121.20W", "1208", "US"],
  ["WA SUNNYSIDE", "K1S5", "1S5", "None", "46.20N", "119.58W", "234", "US"],
  ["WA TACOMA", "KTIW", "TIW", "None", "47.16N", "122.35W", "89", "US"],
  ["WA TACOMA/MC CHORD", "KTCM", "TCM", "74206", "47.07N", "122.28W", "98", "US"],
  ["WA TATOOSH/VOR", "KTOU", "TOU", "99430", "48.18N", "124.38W", "520", "US"],
  ["WA TOLEDO WINLOCK M", "KTDO", "TDO", "None", "46.28N", "122.47W", "113", "US"],
  ["WA VANCOUVER", "KVUO", "VUO", "None", "45.37N", "122.39W", "8", "US"],
  ["WA WALLA WALLA", "KALW", "ALW", "72788", "46.06N", "118.17W", "363", "US"],
  ["WA WENATCHEE", "KEAT", "EAT", "None", "47.24N", "120.12W", "377", "US"],
  ["WA WHIDBEY IS. NAS", "KNUW", "NUW", "69023", "48.21N", "122.39W", "14", "US"],
  ["WA YAKIMA", "KYKM", "YKM", "72781", "46.34N", "120.32W", "324", "US"],
  ["WA BURLINGTON/MT V", "K75S", "75S", "None", "48.28N", "122.25W", "43", "US"],
  ["WA COLVILLE", "K63S", "63S", "None", "48.32N", "117.52W", "571", "US"],
  ["WA DEER PARK", "K07S", "07S", "None", "47.58N", "117.26W", "668", "US"],
  ["WA DESTRUCTION ISL", "None", "None", "99407", "47.40N", "124.31W", "21", "US"],
  ["WA OAK HARBOR AIRPA", "K76S", "76S", "None", "48.15N", "122.40W", "59", "US"],
  ["WA PORT ANGELES CG", "KNOW", "NOW", "74201", "48.08N", "123.25W", "4", "US"],
  ["WA SMITH ISLAND", "None", "None", "99418", "48.19N", "122.10W", "15", "US"],
  ["WA PEARSON/VANCOUVR", "K60S", "60S", "None", "45.37N", "122.39W", "8", "US"],
  ["WA YAGABOND AAF", "K1YT", "None", "None", "46.40N", "120.27W", "438", "US"],
  ["WA WEST POINT (LS)", "None", "None", "99435", "47.40N", "122.34W", "3", "US"],
  ["WI ANTIGO/LANGLADE", "KAIG", "None", "None", "45.09N", "089.07W", "464", "US"],
  ["WI APPLETON/OUTAGAM", "KATW", "ATW", "None", "44.16N", "088.31W", "280", "US"],
  ["WI ASHWAUBENON", "KGRB", "GRB", "72645", "44.29N", "088.08W", "208", "US"],
  ["WI ASHLAND", "KASX", "ASX", "None", "46.33N", "090.55W", "251", "US"],
  ["WI BLACK RIVER FALL", "KBCK", "BCK", "None", "44.15N", "090.51W", "255", "US"],
  ["WI BLUE RIVER PROFI", "None", "BLR", "74357", "43.13N", "090.31W", "226", "US"],
  ["WI BOSCOBEL", "KOVS", "OVS", "None", "43.09N", "090.41W", "202", "US"],
  ["WI BURLINGTON", "KBUU", "BUU", "None", "42.41N", "088.18W", "237", "US"],
  ["WI CHETEK", "KY23", "Y23", "None", "45.18N", "091.38W", "322", "US"],
  ["WI CLINTONVILLE", "KCLI", "CLI", "None", "44.37N", "088.44W", "250", "US"],
  ["WI CUMBERLAND", "KUBE", "UBE", "None", "45.30N", "091.59W", "379", "US"],
  ["WI DELLS/BARABOO", "KDLL", "DLL", "None", "43.31N", "089.46W", "299", "US"],
  ["WI EAGLE RIVER", "KEGV", "EGV", "None", "45.56N", "089.16W", "500", "US"],
  ["WI EPHRAIM-GILBRALT", "K3D2", "3D2", "None", "45.08N", "087.11W", "233", "US"],
  ["WI EAU CLAIRE", "KEAU", "EAU", "None", "44.52N", "091.28W", "276", "US"],
  ["WI FOND DU LAC", "KFLD", "FLD", "None", "43.46N", "088.29W", "240", "US"],
  ["WI HAYWARD", "KHYR", "HYR", "None", "46.01N", "091.27W", "370", "US"],
  ["WI JANESVILLE/ROCK", "KJVL", "JVL", "None", "42.37N", "089.03W", "246", "US"],
  ["WI JUNEAU", "KUNU", "UNU", "None", "43.25N", "088.42W", "285", "US"],
  ["WI KENOSHA", "KENW", "ENW", "None", "42.36N", "087.56W", "219", "US"],
  ["WI LA CROSSE", "KLSE", "LSE", "72643", "43.53N", "091.15W", "199", "US"],
  ["WI LA CROSSE/88D", "KARX", "ARX", "None", "43.49N", "091.11W", "389", "US"],
  ["WI LA POINTE", "K4R5", "4R5", "None", "46.47N", "090.46W", "198", "US"],
  ["WI LADYSMITH/RUSK", "KRCX", "RCX", "None", "45.30N", "091.00W", "377", "US"],
  ["WI LAND O LAKES", "KLNL", "LNL", "None", "46.09N", "089.13W", "520", "US"],
  ["WI LONE ROCK", "KLNR", "LNR", "None", "43.13N", "090.11W", "217", "US"],
  ["WI MADISON", "KMSN", "MSN", "72641", "43.08N", "089.21W", "261", "US"]]

/-- `STATIONS` (database/stations.py 3717-3816). -/
noncomputable def stations37 : List StationRow := rows! [
  ["WI MANITOWAC MUNI", "KMTW", "MTW", "None", "44.07N", "087.40W", "198", "US"],
  ["WI MANITOWISH WATER", "KD25", "D25", "None", "46.07N", "089.53W", "491", "US"],
  ["WI MARSHFIELD", "KMFI", "MFI", "None", "44.38N", "090.11W", "379", "US"],
  ["WI MEDFORD", "KMDZ", "MDZ", "None", "45.06N", "090.18W", "448", "US"],
  ["WI MENOMONIE MUNI", "KLUM", "LUM", "None", "44.54N", "091.52W", "273", "US"],
  ["WI MERRILL", "KRRL", "RRL", "None", "45.12N", "089.43W", "401", "US"],
  ["WI MIDDLETON", "KC29", "C29", "None", "43.07N", "089.32W", "283", "US"],
  ["WI MILWAUKEE", "KMKE", "MKE", "None", "42.57N", "087.54W", "206", "US"],
  ["WI MILWAUKEE/DOUSMN", "KMKX", "MKX", "72640", "42.58N", "088.33W", "292", "US"],
  ["WI MILWAUKEE/LAWREN", "KMWC", "MWC", "None", "43.07N", "088.02W", "227", "US"],
  ["WI MILWAUKEE VOR", "KBAE", "BAE", "None", "43.07N", "088.17W", "206", "US"],
  ["WI MINERAL POINT", "KMRJ", "MRJ", "None", "42.53N", "090.14W", "359", "US"],
  ["WI MINOCQUA/WOODRUF", "KARV", "ARV", "None", "45.55N", "089.43W", "496", "US"],
  ["WI MONROE", "KEFT", "EFT", "None", "42.37N", "089.36W", "331", "US"],
  ["WI MOSINEE/CENTRAL", "KCWA", "CWA", "None", "44.47N", "089.40W", "389", "US"],
  ["WI NEW LISBON", "K82C", "82C", "None", "43.50N", "090.08W", "277", "US"],
  ["WI NEW RICHMOND MUN", "KRNH", "RNH", "None", "45.09N", "092.32W", "304", "US"],
  ["WI OCONTO", "KOCQ", "OCQ", "None", "44.52N", "087.55W", "183", "US"],
  ["WI OSCEOLA", "KOEO", "OEO", "None", "45.19N", "092.42W", "275", "US"],
  ["WI OSHKOSH", "KOSH", "OSH", "None", "43.58N", "088.33W", "248", "US"],
  ["WI PHILLIPS/PRICE", "KPBH", "PBH", "None", "45.42N", "090.24W", "449", "US"],
  ["WI PLATTEVILLE", "KPVB", "PVB", "None", "42.41N", "090.26W", "313", "US"],
  ["WI PRAIRIE DU CHIEN", "KPDC", "PDC", "None", "43.01N", "091.07W", "201", "US"],
  ["WI RACINE", "KRAC", "RAC", "None", "42.46N", "087.49W", "203", "US"],
  ["WI REEDSBURG", "KC35", "C35", "None", "43.32N", "089.59W", "276", "US"],
  ["WI RHINELANDER", "KRHI", "RHI", "None", "45.38N", "089.29W", "485", "US"],
  ["WI RICE LAKE", "KRPD", "RPD", "None", "45.25N", "091.46W", "338", "US"],
  ["WI SHAWANO MUNI", "KEZS", "EZS", "None", "44.47N", "088.34W", "248", "US"],
  ["WI SHEBOYGAN", "KSBM", "SBM", "99433", "43.47N", "087.51W", "232", "US"],
  ["WI SIREN", "KRZN", "RZN", "None", "45.49N", "092.22W", "301", "US"],
  ["WI SOLON SPRINGS", "KOLG", "OLG", "None", "46.19N", "091.49W", "336", "US"],
  ["WI SPARTA/MCCOY AAF", "KCMY", "CMY", "None", "43.58N", "090.44W", "256", "US"],
  ["WI STEVENS POINT", "KSTE", "STE", "None", "44.33N", "089.32W", "338", "US"],
  ["WI STURGEON BAY", "KSUE", "SUE", "None", "44.51N", "087.25W", "221", "US"],
  ["WI SUPERIOR", "KSUW", "SUW", "None", "46.41N", "092.06W", "206", "US"],
  ["WI TOMAHAWK REGNL", "KTKV", "TKV", "None", "45.28N", "089.49W", "453", "US"],
  ["WI VIROQUA MUNI", "KY51", "Y51", "None", "43.35N", "090.54W", "394", "US"],
  ["WI VOLK/CAMP DOUGLA", "KVOK", "VOK", "None", "43.55N", "090.16W", "277", "US"],
  ["WI WASHINGTON ISL", "K2P2", "2P2", "None", "45.23N", "086.55W", "200", "US"],
  ["WI WATERTOWN", "KRYV", "RYV", "None", "43.10N", "088.43W", "254", "US"],
  ["WI WAUKESHA CNTY", "KUES", "UES", "None", "43.03N", "088.15W", "278", "US"],
  ["WI WAUPACA", "KPCZ", "PCZ", "None", "44.20N", "089.01W", "252", "US"],
  ["WI WAUSAU", "KAUW", "AUW", "72646", "44.56N", "089.37W", "362", "US"],
  ["WI WAUTOMA", "KY50", "Y50", "None", "44.02N", "089.18W", "262", "US"],
  ["WI WEST BEND", "KETB", "ETB", "None", "43.25N", "088.08W", "270", "US"],
  ["WI WISCONSIN RAPIDS", "KISW", "ISW", "None", "44.22N", "089.50W", "307", "US"],
  ["WI BARABOO", "KC85", "C85", "None", "43.32N", "089.46W", "299", "US"],
  ["WI BURLINGTON", "KC52", "C52", "None", "42.41N", "088.18W", "237", "US"],
  ["WI DEVILS ISLAND", "None", "None", "99419", "47.04N", "090.16W", "192", "US"],
  ["WI MENOMONIE MUNI", "KW11", "W11", "None", "44.54N", "091.52W", "273", "US"],
  ["WI NEENAH", "KEEW", "EEW", "None", "44.13N", "088.33W", "275", "US"],
  ["WI PARK FALLS", "KPKF", "PKF", "72741", "45.56N", "090.27W", "469", "US"],
  ["WI RICE LAKE", "KRIE", "RIE", "None", "45.29N", "091.43W", "360", "US"],
  ["WI SHAWANO MUNI", "K3WO", "3WO", "None", "44.47N", "088.34W", "248", "US"],
  ["WI TOMAHAWK REGNL", "KT08", "T08", "None", "45.28N", "089.48W", "453", "US"],
  ["WV BECKLEY", "KBKW", "BKW", "72412", "37.48N", "081.07W", "764", "US"],
  ["WV BLUEFIELD", "KBLF", "BLF", "None", "37.18N", "081.12W", "873", "US"],
  ["WV BUCKHANNON", "KW22", "W22", "None", "39.00N", "080.16W", "499", "US"],
  ["WV CHARLESTON", "KCRW", "CRW", "72414", "38.23N", "081.35W", "309", "US"],
  ["WV CLARKSBURG", "KCKB", "CKB", "None", "39.18N", "080.13W", "360", "US"],
  ["WV ELKINS", "KEKN", "EKN", "72417", "38.53N", "079.51W", "603", "US"],
  ["WV HENDERSON", "KHNN", "HNN", "None", "38.45N", "082.01W", "262", "US"],
  ["WV HUNTINGTON", "KHTS", "HTS", "72425", "38.22N", "082.33W", "254", "US"],
  ["WV LEWISBURG/GREENB", "KLWB", "LWB", "None", "37.52N", "080.24W", "702", "US"],
  ["WV LOGAN", "K6L4", "6L4", "None", "37.51N", "081.55W", "508", "US"],
  ["WV MARTINSBURG", "KMRB", "MRB", "None", "39.24N", "077.59W", "164", "US"],
  ["WV MORGANTOWN", "KMGW", "MGW", "None", "39.39N", "079.55W", "378", "US"],
  ["WV PARKERSBURG", "KPKB", "PKB", "72427", "39.21N", "081.25W", "262", "US"],
  ["WV PT PLEASANT", "K3I2", "3I2", "None", "38.55N", "082.06W", "196", "US"],
  ["WV PETERSBURG", "KW99", "W99", "None", "39.00N", "079.09W", "293", "US"],
  ["WV PINEVILLE", "KI16", "I16", "None", "37.36N", "081.34W", "544", "US"],
  ["WV RUTHDALE/CHARLES", "KRLX", "RLX", "None", "38.19N", "081.43W", "329", "US"],
  ["WV SUTTON/BRAXTON", "K48I", "48I", "None", "38.41N", "080.39W", "397", "US"],
  ["WV WHEELING", "KHLG", "HLG", "None", "40.10N", "080.39W", "372", "US"],
  ["WV WHITE SULPHUR SP", "KSSU", "SSU", "None", "37.46N", "080.19W", "549", "US"],
  ["WY AFTON", "KAFO", "AFO", "None", "42.43N", "110.57W", "1897", "US"],
  ["WY ALPINE", "K46U", "46U", "None", "43.11N", "111.02W", "1721", "US"],
  ["WY BIG PINEY", "KBPI", "BPI", "72671", "42.35N", "110.06W", "2117", "US"],
  ["WY BOYSEN (VOR)", "KBOY", "BOY", "None", "43.28N", "108.18W", "2517", "US"],
  ["WY BOYSEN/THERMOPOL", "KTBX", "TBX", "None", "43.28N", "108.14W", "2225", "US"],
  ["WY BUFFALO", "KBYG", "BYG", "None", "44.23N", "106.43W", "1497", "US"],
  ["WY CASPER", "KCPR", "CPR", "72569", "42.54N", "106.28W", "1621", "US"],
  ["WY CASPER(VOR)", "KDDY", "DDY", "None", "43.05N", "106.17W", "1621", "US"],
  ["WY CHEYENNE", "KCYS", "CYS", "72564", "41.09N", "104.48W", "1868", "US"],
  ["WY COWLEY/LOVELL", "KU68", "U68", "None", "44.55N", "108.27W", "1248", "US"],
  ["WY WARREN AIR BASE", "KFEW", "FEW", "None", "41.08N", "104.52W", "1878", "US"],
  ["WY CODY", "KCOD", "COD", "72670", "44.31N", "109.01W", "1553", "US"],
  ["WY CRAZY WOMAN/VOR", "KCZI", "CZI", "None", "44.00N", "106.26W", "1550", "US"],
  ["WY DIXON", "KDWX", "DWX", "None", "41.02N", "107.30W", "1996", "US"],
  ["WY DOUGLAS", "KDGW", "DGW", "72568", "42.48N", "105.23W", "1499", "US"],
  ["WY DUBOIS MUNI", "KDUB", "DUB", "None", "43.33N", "109.31W", "2224", "US"],
  ["WY ELK MOUNTAIN", "KEHY", "EHY", "None", "41.44N", "106.28W", "2225", "US"],
  ["WY EVANSTON", "KEVW", "EVW", "None", "41.16N", "111.02W", "2177", "US"],
  ["WY FORT BRIDGER", "KFBR", "FBR", "None", "41.24N", "110.21W", "2144", "US"],
  ["WY GILLETTE", "KGCC", "GCC", "72665", "44.20N", "105.33W", "1320", "US"],
  ["WY GREYBULL", "KGEY", "GEY", "None", "44.31N", "108.05W", "1191", "US"],
  ["WY HULETT MUNI", "KW43", "W43", "None", "44.40N", "104.34W", "1300", "US"],
  ["WY JACKSON", "KJAC", "JAC", "None", "43.37N", "110.44W", "1961", "US"],
  ["WY KEMMERER", "KEMM", "EMM", "None", "41.49N", "110.33W", "2220", "US"],
  ["WY LANDER", "KLND", "LND", "72576", "42.49N", "108.44W", "1694", "US"]]

/-- `STATIONS` (database/stations.py 3817-3916). -/
noncomputable def stations38 : List StationRow := rows! [
  ["WY LARAMIE", "KLAR", "LAR", "None", "41.19N", "105.40W", "2216", "US"],
  ["WY LAVA MOUNTAIN", "KAJL", "None", "None", "43.40N", "110.02W", "3161", "US"],
  ["WY MEDICINE BOW PRO", "None", "MBW", "74431", "41.53N", "106.10W", "2300", "US"],
  ["WY NEWCASTLE MONDEL", "KECS", "ECS", "None", "43.53N", "104.19W", "1273", "US"],
  ["WY PINEDALE R WENZ", "KPNA", "PNA", "None", "42.48N", "109.48W", "2160", "US"],
  ["WY PINE BLUFFS MUNI", "K82V", "82V", "None", "41.09N", "104.08W", "1570", "US"],
  ["WY POWELL", "KPOY", "POY", "None", "44.52N", "108.48W", "1554", "US"],
  ["WY RAWLINS MUNICIPA", "KRWL", "RWL", "None", "41.47N", "107.12W", "2077", "US"],
  ["WY RIVERTON", "KRIW", "RIW", "72672", "43.04N", "108.28W", "1697", "US"],
  ["WY ROCK SPRINGS", "KRKS", "RKS", "72574", "41.36N", "109.04W", "2060", "US"],
  ["WY ROCK SPNGS(VOR)", "KOCS", "OCS", "None", "41.35N", "109.01W", "2060", "US"],
  ["WY SARATOGA", "KSAA", "SAA", "None", "41.27N", "106.50W", "2138", "US"],
  ["WY SHERIDAN", "KSHR", "SHR", "72666", "44.46N", "106.58W", "1202", "US"],
  ["WY SOUTH PASS", "KFWZ", "FWZ", "None", "42.31N", "108.47W", "2588", "US"],
  ["WY TEN SLEEP", "KJPD", "JPD", "None", "44.09N", "107.10W", "2741", "US"],
  ["WY THERMOPOLIS", "KHSG", "HSG", "None", "43.43N", "108.24W", "1492", "US"],
  ["WY TORRINGTON", "KTOR", "TOR", "None", "42.04N", "104.09W", "1277", "US"],
  ["WY WORLAND", "KWRL", "WRL", "None", "43.58N", "107.57W", "1271", "US"],
  ["WY YELLOWSTONE LAKE", "KP60", "P60", "None", "44.33N", "110.25W", "2388", "US"],
  ["WY DOUGLAS", "K4DG", "4DG", "None", "42.45N", "105.23W", "1477", "US"],
  ["WY MOORCROFT", "K81V", "81V", "None", "44.16N", "104.57W", "1301", "US"],
  ["WY BORDEAUX", "KBRX", "BRX", "None", "41.57N", "104.57W", "1524", "US"],
  ["WY CONTINENTAL DIV", "KCTD", "CTD", "None", "41.43N", "107.47W", "2146", "US"],
  ["WY VEDAUWOO", "KVDW", "VDW", "None", "41.09N", "105.24W", "2542", "US"],
  ["WY PUMPKIN VINE", "KPUM", "PUM", "None", "41.03N", "105.28W", "2420", "US"],
  ["WY ARLINGTON", "KARL", "None", "None", "41.36N", "106.13W", "2179", "US"],
  ["WY BITTERCREEK", "KBIT", "BIT", "None", "41.39N", "108.35W", "2160", "US"],
  ["WY CEMETERY SEPARA", "KCMS", "CMS", "None", "41.32N", "109.28W", "1949", "US"],
  ["WY FIRST DIVIDE", "KFIR", "FIR", "None", "41.18N", "110.46W", "2294", "US"],
  ["WY I-25 DIVIDE", "KIDV", "IDV", "None", "43.56N", "106.39W", "1531", "US"],
  ["WY 20 MILE HILL", "KTMH", "TMH", "None", "43.07N", "106.20W", "1743", "US"],
  ["WY DEAD HORSE", "KDHS", "DHS", "None", "44.13N", "106.06W", "1241", "US"],
  ["WY INYAN KARA", "KIKA", "IKA", "None", "44.18N", "104.38W", "1319", "US"],
  ["WY BELLE FOURCHE", "KBFU", "BFU", "None", "43.56N", "105.27W", "1422", "US"],
  ["WY WHITAKER", "KWTR", "WTR", "None", "41.25N", "104.52W", "1882", "US"],
  ["WY PATHFINDER HILL", "KPAT", "None", "None", "42.34N", "106.51W", "1912", "US"],
  ["WY BEAVER RIM", "KBVR", "BVR", "None", "42.35N", "108.17W", "2072", "US"],
  ["WY SIBLEY PEAK", "KSIB", "SIB", "None", "42.27N", "105.02W", "1500", "US"],
  ["WY PINEY CREEK", "KPIN", "PIN", "None", "44.34N", "106.49W", "1392", "US"],
  ["WY HILAND", "KHLD", "HLD", "None", "43.06N", "107.19W", "1846", "US"],
  ["WY DEER CREEK", "KDRC", "DRC", "None", "42.50N", "105.52W", "1543", "US"],
  ["WY SKYLINE", "KSKL", "SKL", "None", "41.07N", "106.34W", "2451", "US"],
  ["WY RIM / PINEDALE", "KRIM", "RIM", "None", "43.06N", "110.19W", "2294", "US"],
  ["WY SAGE / JUNCTION", "KSGE", "SGE", "None", "41.47N", "110.30W", "2354", "US"],
  ["WY GUNBARREL", "KGUN", "GUN", "None", "41.26N", "104.21W", "1695", "US"],
  ["WY CHIEF JOSEPH", "KCHJ", "CHJ", "None", "44.45N", "109.22W", "2512", "US"],
  ["WY SHUTE CREEK", "KSHC", "SHC", "None", "41.56N", "109.58W", "2043", "US"],
  ["WY MAMMOTH/YELLOWST", "KMMM", "MMM", "None", "44.59N", "110.42W", "1902", "US"],
  ["WY TOWER FALLS", "KTOW", "TOW", "None", "44.54N", "110.23W", "1800", "US"],
  ["WY MEETEETSE RIM", "KMTR", "None", "None", "44.16N", "108.52W", "1803", "US"],
  ["DC NWS HDQTRS", "KWBC", "WBC", "None", "38.51N", "076.56W", "50", "US"],
  ["DC WASHINGTON/NATL", "KDCA", "DCA", "72405", "38.51N", "077.02W", "18", "US"],
  ["DC WASHINGTON/ARTCC", "KZDC", "ZDC", "None", "39.06N", "077.33W", "20", "US"],
  ["AB ABEE AGDM", "CXAF", "None", "71285", "54.17N", "112.58W", "664", "CA"],
  ["AB ANDREW AGDM", "CXAG", "None", "71286", "53.55N", "112.17W", "625", "CA"],
  ["AB ATMORE AGDM", "CXAJ", "None", "71287", "54.46N", "112.49W", "574", "CA"],
  ["AB BANFF (MARS)", "CWZG", "WZG", "None", "51.12N", "115.32W", "1397", "CA"],
  ["AB BARNWELL AGDM", "CXBW", "None", "71346", "49.48N", "112.18W", "824", "CA"],
  ["AB BEAVERLODGE", "CWBM", "None", "71230", "55.12N", "119.24W", "745", "CA"],
  ["AB BODO AGDM", "CXBA", "None", "71214", "52.07N", "110.06W", "687", "CA"],
  ["AB BOW ISLAND", "CWXL", "WXL", "71231", "49.44N", "111.27W", "817", "CA"],
  ["AB BOW VALLEY", "CWXA", "WXA", "71232", "51.04N", "115.04W", "1298", "CA"],
  ["AB BROCKET AGDM", "CXBR", "None", "71341", "49.37N", "113.49W", "1073", "CA"],
  ["AB BROOKS (AUTOB)", "CWBO", "WBO", "71457", "50.32N", "111.50W", "747", "CA"],
  ["AB CALGARY INTNL AR", "CYYC", "YYC", "71877", "51.07N", "114.01W", "1084", "CA"],
  ["AB CALGARY INTL", "CPCI", "None", "71393", "51.07N", "114.01W", "1081", "CA"],
  ["AB CALGARY/SPRINGBA", "CYBW", "YBW", "71860", "51.06N", "114.22W", "1200", "CA"],
  ["AB CARDSTON (AUT)", "CWFJ", "WFJ", "71153", "49.12N", "113.16W", "1136", "CA"],
  ["AB CHAMPION AGDM", "CXCP", "None", "71217", "50.17N", "113.21W", "1006", "CA"],
  ["AB CLARESHOLM (AUTO", "CWDK", "WDK", "71234", "50.01N", "113.37W", "1012", "CA"],
  ["AB CLEARDALE AGDM", "CXCD", "None", "71221", "56.19N", "119.45W", "630", "CA"],
  ["AB COLD LAKE (CAN", "CYOD", "YOD", "71120", "54.24N", "110.17W", "544", "CA"],
  ["AB CONSORT AGDM", "CXCS", "None", "71223", "51.56N", "110.43W", "772", "CA"],
  ["AB CORONATION(AUT)", "CWCT", "WCT", "None", "52.04N", "111.28W", "791", "CA"],
  ["AB CROWSNEST", "CWRT", "WRT", "71236", "49.37N", "114.28W", "1303", "CA"],
  ["AB DAPP AGDM", "CXDP", "None", "71340", "54.19N", "113.57W", "614", "CA"],
  ["AB DEL BONITA AGDM", "CXDB", "None", "71224", "49.03N", "112.49W", "1310", "CA"],
  ["AB DRUMHELLER EAST", "CWDZ", "WDZ", "None", "51.25N", "112.40W", "678", "CA"],
  ["AB EDMONTON INTL AR", "CYEG", "YEG", "71123", "53.17N", "113.34W", "723", "CA"],
  ["AB EDMONTON INTL AR", "CXEG", "XEG", "71155", "53.18N", "113.36W", "715", "CA"],
  ["AB EDMONTON MUNI", "CXEC", "XEC", "71157", "53.34N", "113.31W", "671", "CA"],
  ["AB EDMONTON MUNICIP", "CYXD", "YXD", "71879", "53.34N", "113.31W", "671", "CA"],
  ["AB EDMONTON/NAMAO(M", "CYED", "YED", "71121", "53.40N", "113.28W", "688", "CA"],
  ["AB EDMONTON/STONY P", "CWSE", "WSE", "71119", "53.32N", "114.05W", "766", "CA"],
  ["AB EDMONTON/STONY P", "CZED", "ZED", "71126", "53.33N", "114.06W", "766", "CA"],
  ["AB EDMONTON/STONY P", "CXPS", "None", "None", "53.33N", "114.06W", "766", "CA"],
  ["AB EDMONTON/VILLENU", "CZVL", "None", "None", "53.40N", "113.51W", "686", "CA"],
  ["AB EDSON AIRPORT", "CYET", "YET", "71881", "53.34N", "116.28W", "925", "CA"],
  ["AB EDSON", "CZZJ", "None", "71156", "53.35N", "116.28W", "927", "CA"],
  ["AB ESTHER 1", "CWGY", "WGY", "71240", "51.40N", "110.12W", "707", "CA"],
  ["AB FAIRVIEW AGDM", "CXFR", "None", "71347", "56.05N", "118.26W", "655", "CA"],
  ["AB FOREMOST AGDM", "CXFM", "None", "71225", "49.29N", "111.29W", "881", "CA"],
  ["AB FORT CHIPEWYAN A", "CYPY", "YPY", "71933", "58.46N", "111.07W", "232", "CA"],
  ["AB FORT MCMURRAY AR", "CYMM", "YMM", "71932", "56.39N", "111.13W", "369", "CA"],
  ["AB FORT MCMURRAY AR", "CXMM", "XMM", "71585", "56.39N", "111.13W", "369", "CA"],
  ["AB FORT VERMILLION", "CXFV", "None", "None", "58.23N", "116.02W", "289", "CA"],
  ["AB GRANDE PRAIRE AR", "CYQU", "YQU", "71940", "55.11N", "118.53W", "669", "CA"],
  ["AB HIGH LEVEL AIRPO", "CYOJ", "YOJ", "71066", "58.37N", "117.10W", "338", "CA"],
  ["AB HIGH PRAIRIE AGD", "CXHP", "None", "71226", "55.24N", "116.29W", "602", "CA"],
  ["AB HIGHVALE", "CWHA", "WHA", "71241", "53.27N", "114.28W", "747", "CA"]]

/-- `STATIONS` (database/stations.py 3917-4016). -/
noncomputable def stations39 : List StationRow := rows! [
  ["AB HOLDEN AGDM", "CXHD", "None", "71227", "53.11N", "112.15W", "688", "CA"],
  ["AB HUSSAR AGDM", "CXHR", "None", "71344", "51.11N", "112.30W", "971", "CA"],
  ["AB JASPER WARDEN (A", "CWJW", "WJW", "71486", "52.56N", "118.02W", "1020", "CA"],
  ["AB KILLAM AGDM", "CXKM", "None", "71228", "52.49N", "111.51W", "675", "CA"],
  ["AB LAC LA BICHE (MA", "CWLB", "WLB", "71931", "54.46N", "112.01W", "567", "CA"],
  ["AB LETHBRIDGE VOR", "CYQL", "YQL", "71874", "49.38N", "112.48W", "929", "CA"],
  ["AB LLOYDMINSTER ARP", "CYLL", "YLL", "71871", "53.19N", "110.04W", "669", "CA"],
  ["AB MANNING AGDM", "CXMG", "None", "71229", "56.58N", "117.27W", "457", "CA"],
  ["AB MASINASIN AGDM", "CXMN", "None", "71345", "49.07N", "111.39W", "947", "CA"],
  ["AB MEDICINE HAT", "CYXH", "YXH", "71872", "50.01N", "110.43W", "716", "CA"],
  ["AB MEDICINE HAT", "CXMH", "None", "71026", "50.02N", "110.43W", "717", "CA"],
  ["AB MILK RIVER", "CWRY", "WRY", "71244", "49.07N", "112.02W", "1050", "CA"],
  ["AB MORRIN AGDM", "CXMO", "None", "71257", "51.40N", "112.41W", "836", "CA"],
  ["AB MUNDARE AGDM", "CZMU", "None", "71354", "53.34N", "112.18W", "683", "CA"],
  ["AB NORDEGG CS", "CXND", "None", "None", "52.28N", "116.05W", "1362", "CA"],
  ["AB OLDS AGDM", "CXOL", "None", "71258", "51.46N", "114.05W", "1046", "CA"],
  ["AB OLIVER AGDM", "CZOL", "None", "71351", "53.39N", "113.21W", "665", "CA"],
  ["AB OYEN AGDM", "CXOY", "None", "71342", "51.23N", "110.21W", "767", "CA"],
  ["AB ONEFOUR (AUTOB)", "CWOE", "WOE", "71116", "49.07N", "110.28W", "935", "CA"],
  ["AB PEACE RIVER AIRP", "CYPE", "YPE", "71068", "56.13N", "117.27W", "571", "CA"],
  ["AB PEORIA AGDM", "CXPA", "None", "71348", "55.37N", "118.18W", "621", "CA"],
  ["AB PINCHER CREEK(M", "CZPC", "ZPC", "71875", "49.31N", "114.00W", "1190", "CA"],
  ["AB POLLOCKVILLE AGD", "CXPL", "None", "71259", "51.08N", "111.42W", "750", "CA"],
  ["AB PRAIRIE RIVER", "CXPV", "XPV", "71593", "58.27N", "111.40W", "213", "CA"],
  ["AB PRENTISS", "CZPS", "None", "71353", "52.26N", "113.36W", "965", "CA"],
  ["AB PRIMROSE LAKE", "CWIQ", "WIQ", "71124", "54.45N", "110.02W", "702", "CA"],
  ["AB PRIMROSE LAKE 2", "CWOU", "WOU", "71127", "54.46N", "110.04W", "606", "CA"],
  ["AB RED DEER AIRPORT", "CYQF", "YQF", "71878", "52.10N", "113.54W", "905", "CA"],
  ["AB RICH LAKE AGDM", "CXRL", "None", "71349", "54.30N", "111.42W", "585", "CA"],
  ["AB ROCKY HOUSE (MAR", "CWRM", "WRM", "None", "52.25N", "114.55W", "988", "CA"],
  ["AB SCHULER AGDM", "CXSC", "None", "71269", "50.18N", "110.05W", "800", "CA"],
  ["AB SCHULER RADAR", "CXBU", "None", "None", "50.29N", "110.12W", "777", "CA"],
  ["AB SLAVE LAKE AIRPO", "CYZH", "YZH", "71069", "55.17N", "114.46W", "581", "CA"],
  ["AB SMOKY LAKE AGDM", "CXSL", "None", "71274", "54.17N", "112.30W", "680", "CA"],
  ["AB SPIRIT RIVER", "CXSR", "XSR", "71571", "55.42N", "119.14W", "1015", "CA"],
  ["AB STETTLER AGDM", "CXAK", "None", "71289", "52.21N", "112.36W", "795", "CA"],
  ["AB ST PAUL AGDM", "CXSP", "None", "71275", "54.01N", "111.16W", "649", "CA"],
  ["AB SUFFIELD AIRPORT", "CYSD", "YSD", "71128", "50.16N", "111.10W", "770", "CA"],
  ["AB SUNDRE", "CWAV", "WAV", "71248", "51.46N", "114.40W", "1114", "CA"],
  ["AB THREE HILLS", "CWHI", "WHI", "71249", "51.42N", "113.13W", "907", "CA"],
  ["AB TURTLE MTN CS", "CWQA", "None", "71250", "49.35N", "114.25W", "2164", "CA"],
  ["AB TWO HILLS AGDM", "CXTH", "None", "71276", "53.38N", "111.41W", "678", "CA"],
  ["AB VALLEYVIEW AGDM", "CXVW", "None", "None", "55.06N", "117.12W", "698", "CA"],
  ["AB VEGREVILLE (AUTO", "CWVI", "None", "71458", "53.31N", "112.06W", "639", "CA"],
  ["AB VERMILION AGDM", "CXVM", "None", "None", "53.21N", "110.53W", "623", "CA"],
  ["AB VILNA AG", "CPVI", "None", "71761", "54.08N", "111.55W", "645", "CA"],
  ["AB WATERTON PARK GA", "CWGM", "WGM", "71154", "49.08N", "113.47W", "1296", "CA"],
  ["AB WHITECOURT AIRPO", "CYZU", "YZU", "71930", "54.09N", "115.47W", "785", "CA"],
  ["AB WHITECOURT AIRPO", "CXZU", "XZU", "71256", "54.09N", "115.47W", "785", "CA"],
  ["AB WRENTHAN AGDM", "CXWM", "None", "71343", "49.30N", "112.07W", "944", "CA"],
  ["AB YOHO PARK (AUTOB", "CWYL", "WYL", "71786", "51.27N", "116.19W", "1615", "CA"],
  ["AB BLOOD TRIBE AGDM", "CPBT", "None", "71517", "49.34N", "113.03W", "980", "CA"],
  ["AB ENCHANT AGDM", "CPEH", "None", "71518", "50.11N", "112.26W", "801", "CA"],
  ["AB FINCASTLE AGDM", "CPFI", "None", "71535", "49.48N", "112.02W", "833", "CA"],
  ["AB IRON SPRINGS", "CPIR", "None", "71528", "49.54N", "112.44W", "858", "CA"],
  ["AB LETHBRIDGE DEMO", "CPQL", "None", "71509", "49.41N", "112.45W", "903", "CA"],
  ["AB ROSEMARY AGDM", "CPRO", "None", "71537", "50.50N", "112.03W", "714", "CA"],
  ["AB RAYMOND AGDM", "CPRY", "None", "71536", "49.29N", "112.41W", "937", "CA"],
  ["AB STRATHMORE AGDM", "CPST", "None", "71526", "51.02N", "113.17W", "967", "CA"],
  ["AB SEVEN PERSONS", "CPSV", "None", "71525", "49.55N", "110.55W", "766", "CA"],
  ["AB BOW ISLAND AGDM", "CPXL", "None", "71519", "49.52N", "111.23W", "799", "CA"],
  ["AB BANFF (CWBA-old)", "None", "None", "71122", "51.10N", "115.34W", "1383", "CA"],
  ["BC ABBOTSFORD AIRPO", "CYXX", "YXX", "71108", "49.02N", "122.23W", "58", "CA"],
  ["BC ADDENBROKE ISL (", "CWCZ", "WCZ", "None", "51.36N", "127.52W", "21", "CA"],
  ["BC AGASSIZ (AUTO)", "CWZA", "WZA", "71113", "49.15N", "121.46W", "15", "CA"],
  ["BC AMPHITRITE POINT", "CWAN", "WAN", "71112", "48.55N", "125.32W", "27", "CA"],
  ["BC ASHCROFT", "CVAS", "None", "71681", "50.43N", "121.17W", "327", "CA"],
  ["BC BALLENAS IL AUTO", "CWGB", "WGB", "71769", "49.21N", "124.10W", "5", "CA"],
  ["BC BELLA COOLA ARPT", "CYBD", "YBD", "71206", "52.22N", "126.34W", "35", "CA"],
  ["BC BELLA BELLA", "CBBC", "None", "None", "52.11N", "128.09W", "43", "CA"],
  ["BC BIG CREEK(AUTO)", "CWBG", "WBG", "None", "51.15N", "123.04W", "1670", "CA"],
  ["BC BLEIBLER RANCH", "CYIN", "None", "None", "51.16N", "121.41W", "1128", "CA"],
  ["BC BLUE RIVER (MAN)", "CYCP", "YCP", "71883", "52.08N", "119.17W", "683", "CA"],
  ["BC BLUE RIVER (MARS", "CWSV", "WSV", "None", "52.06N", "119.17W", "683", "CA"],
  ["BC BOAT BLUFF (LGT", "CWZM", "WZM", "None", "52.39N", "128.31W", "15", "CA"],
  ["BC BONILLA ISL (MAP", "CWWL", "WWL", "71484", "53.30N", "130.38W", "17", "CA"],
  ["BC BONILLA ISLAND (", "CWVB", "WVB", "None", "53.30N", "130.38W", "16", "CA"],
  ["BC BURNS LAKE", "CWPZ", "WPZ", "71952", "54.23N", "125.58W", "713", "CA"],
  ["BC CAMPBELL RIVER A", "CYBL", "YBL", "None", "49.57N", "125.16W", "106", "CA"],
  ["BC CAPE MUDGE (LGT", "CWAD", "WAD", "None", "50.00N", "125.12W", "4", "CA"],
  ["BC CAPE SCOTT (LGT", "CWES", "WES", "71111", "50.46N", "128.25W", "72", "CA"],
  ["BC CAPE ST JAMES", "CWZV", "WZV", "71107", "51.56N", "131.01W", "92", "CA"],
  ["BC CASTLEGAR AIRPOR", "CYCG", "YCG", "71884", "49.17N", "117.37W", "495", "CA"],
  ["BC CATHEDRAL PT(MAP", "CWME", "WME", "71482", "52.11N", "127.28W", "32", "CA"],
  ["BC CHATHAM POINT (L", "CWFM", "WFM", "None", "50.20N", "125.27W", "23", "CA"],
  ["BC CHETWYND AIRPORT", "CYCQ", "YCQ", "None", "55.42N", "121.37W", "609", "CA"],
  ["BC CLINTON (MARS)", "CWCL", "WCL", "71474", "51.08N", "121.30W", "1057", "CA"],
  ["BC COMOX (CAN MIL)", "CYQQ", "YQQ", "71893", "49.43N", "124.54W", "24", "CA"],
  ["BC CRANBROOK", "CYXC", "YXC", "71880", "49.36N", "115.46W", "939", "CA"],
  ["BC CRESTON (AUTOB)", "CWJR", "WJR", "71770", "49.04N", "116.30W", "646", "CA"],
  ["BC CUMSHEWA ISL (MA", "CWZL", "WZL", "None", "53.02N", "131.36W", "17", "CA"],
  ["BC DAWSON CREEK ARP", "CYDQ", "YDQ", "None", "55.45N", "120.10W", "655", "CA"],
  ["BC DEASE LAKE", "CWDL", "None", "71958", "58.26N", "130.01W", "816", "CA"],
  ["BC DEASE LAKE", "CYDL", "None", "None", "58.25N", "130.01W", "816", "CA"],
  ["BC DEASE LAKE CS", "CWKX", "WKX", "71222", "58.26N", "130.01W", "793", "CA"],
  ["BC DISCOVERY ISLAND", "CWDR", "None", "71031", "48.25N", "123.14W", "17", "CA"],
  ["BC DRYAD POINT (LGT", "CWAU", "WAU", "None", "52.11N", "128.07W", "4", "CA"],
  ["BC EGG ISLAND", "CWEM", "WEM", "None", "51.15N", "127.50W", "14", "CA"],
  ["BC ENTRANCE IL AUTO", "CWEL", "WEL", "71772", "49.13N", "123.47W", "5", "CA"],
  ["BC ESQUIMALT METOC", "CWPF", "WPF", "None", "48.26N", "123.26W", "12", "CA"]]

end Verif
