import Verif.Model.Stations.Rows

/-
Rows of `STATIONS` (database/stations.py). Generated by tools/stations2lean.py.
-/

namespace Verif

/-- `STATIONS` (database/stations.py 2017-2116). -/
noncomputable def stations20 : List StationRow := rows! [
  ["MO LATHROP PROFILER", "None", "LTH", "74551", "39.34N", "094.10W", "297", "US"],
  ["MO LEES SUMMIT MUNI", "KLXT", "LXT", "None", "38.58N", "094.22W", "306", "US"],
  ["MO MALDEN", "KMAW", "MAW", "None", "36.36N", "090.00W", "90", "US"],
  ["MO MARSHALL", "KMHL", "MHL", "None", "39.06N", "093.12W", "237", "US"],
  ["MO MARYVILLE", "KEVU", "EVU", "None", "40.21N", "094.55W", "349", "US"],
  ["MO MEXICO", "KMYJ", "MYJ", "None", "39.09N", "091.49W", "251", "US"],
  ["MO MOBERLY", "KMBY", "MBY", "None", "39.28N", "092.26W", "264", "US"],
  ["MO MONETT", "KUMN", "UMN", "72349", "36.52N", "093.54W", "437", "US"],
  ["MO MONETT", "KHFJ", "HFJ", "None", "36.54N", "094.01W", "401", "US"],
  ["MO MOSBY", "KGPH", "None", "None", "39.20N", "094.19W", "235", "US"],
  ["MO NEOSHO", "KEOS", "EOS", "None", "36.49N", "094.24W", "383", "US"],
  ["MO NEVADA", "KNVD", "NVD", "None", "37.51N", "094.18W", "272", "US"],
  ["MO PERRYVILE", "KPCD", "PCD", "None", "37.52N", "089.52W", "114", "US"],
  ["MO PIEDMONT", "KPYN", "PYN", "None", "37.08N", "090.43W", "142", "US"],
  ["MO PLEASANT HILL/KC", "KEAX", "EAX", "None", "38.49N", "094.16W", "303", "US"],
  ["MO POPULAR BLUFF", "KPOF", "POF", "None", "36.46N", "090.19W", "99", "US"],
  ["MO SEDALIA", "KDMO", "DMO", "None", "38.43N", "093.10W", "274", "US"],
  ["MO SIKESTON", "KSIK", "SIK", "None", "36.54N", "089.34W", "96", "US"],
  ["MO SPICKARD", "KP35", "P35", "72540", "40.15N", "093.43W", "270", "US"],
  ["MO SPRINGFIELD", "KSGF", "SGF", "72440", "37.14N", "093.23W", "390", "US"],
  ["MO ST CHARLES/88D", "KLSX", "LSX", "None", "38.42N", "090.41W", "185", "US"],
  ["MO ST. CHARLES", "KSET", "SET", "None", "38.56N", "090.26W", "134", "US"],
  ["MO ST. JOSEPH", "KSTJ", "STJ", "72449", "39.46N", "094.55W", "247", "US"],
  ["MO ST. LOUIS/SPIRIT", "KSUS", "SUS", "None", "38.39N", "090.39W", "141", "US"],
  ["MO ST. LOUIS", "KSTL", "STL", "72434", "38.45N", "090.22W", "171", "US"],
  ["MO SULLIVAN", "KUUV", "UUV", "None", "38.14N", "091.10W", "284", "US"],
  ["MO VICHY/ROLLA", "KVIH", "VIH", "None", "38.08N", "091.46W", "333", "US"],
  ["MO WARSAW", "KRAW", "RAW", "None", "38.21N", "093.21W", "285", "US"],
  ["MO WARRENSBURG SKYH", "KRCM", "RCM", "None", "38.47N", "093.48W", "244", "US"],
  ["MO WASHINGTON", "KFYG", "FYG", "None", "38.35N", "091.00W", "149", "US"],
  ["MO WEST PLAINS", "KUNO", "UNO", "72348", "36.53N", "091.54W", "372", "US"],
  ["MO WHITEMAN AFB", "KSZL", "SZL", "None", "38.43N", "093.32W", "265", "US"],
  ["MO POPLAR BLUFF", "KP02", "P02", "72330", "36.46N", "090.28W", "146", "US"],
  ["MO ST. CHARLES", "K3SQ", "3SQ", "None", "38.51N", "090.30W", "135", "US"],
  ["MO CAMDENTON", "KH21", "H21", "None", "37.58N", "092.41W", "324", "US"],
  ["MO WEST PLAINS", "KH63", "H63", "None", "36.45N", "091.52W", "308", "US"],
  ["MO WARRENSBURG SKYH", "K9K4", "9K4", "None", "38.47N", "093.48W", "244", "US"],
  ["MS ABERDEEN/AMORY", "KM40", "M40", "None", "33.52N", "088.29W", "69", "US"],
  ["MS BATESVILLE", "KPMU", "PMU", "None", "34.22N", "089.54W", "68", "US"],
  ["MS BAY ST LOUIS", "KHSA", "HSA", "None", "30.22N", "089.27W", "7", "US"],
  ["MS BELMONT", "K01M", "01M", "None", "34.30N", "088.12W", "176", "US"],
  ["MS BILOXI/KEESLER", "KBIX", "BIX", "None", "30.25N", "088.55W", "10", "US"],
  ["MS BIGBEE", "KIGB", "IGB", "None", "33.29N", "088.30W", "73", "US"],
  ["MS BROOKHAVEN", "K1R7", "1R7", "None", "31.36N", "090.25W", "149", "US"],
  ["MS CLARKSDALE", "KCKM", "CKM", "None", "34.18N", "090.31W", "53", "US"],
  ["MS CLEVELAND", "KRNV", "RNV", "None", "33.46N", "090.45W", "41", "US"],
  ["MS COLUMBIA-MARION", "K0R0", "0R0", "None", "31.18N", "089.49W", "81", "US"],
  ["MS COLUMBUS AFB", "KCBM", "CBM", "None", "33.38N", "088.27W", "67", "US"],
  ["MS COLUMBUS AFB/88D", "KGWX", "GWX", "None", "33.54N", "088.20W", "145", "US"],
  ["MS CONCORDIA PARISH", "K0R4", "0R4", "None", "31.34N", "091.30W", "17", "US"],
  ["MS CORINTH/R TURNER", "KCRX", "CRX", "None", "34.55N", "088.36W", "130", "US"],
  ["MS GOLDEN/COLUMBUS", "KGTR", "GTR", "None", "33.27N", "088.34W", "80", "US"],
  ["MS GREENVILLE", "KGLH", "GLH", "None", "33.30N", "090.59W", "45", "US"],
  ["MS GREENWOOD", "KGWO", "GWO", "None", "33.30N", "090.05W", "44", "US"],
  ["MS GULFPORT", "KGPT", "GPT", "None", "30.25N", "089.05W", "14", "US"],
  ["MS HATTIESBURG", "KHBG", "HBG", "None", "31.16N", "089.15W", "44", "US"],
  ["MS INDIANOLA", "KIDL", "IDL", "None", "33.29N", "090.41W", "39", "US"],
  ["MS JACKSON/HAWKINS", "KHKS", "HKS", "None", "32.20N", "090.13W", "108", "US"],
  ["MS JACKSON", "KJAN", "JAN", "72235", "32.19N", "090.05W", "91", "US"],
  ["MS LAUREL", "KLUL", "LUL", "None", "31.28N", "089.20W", "91", "US"],
  ["MS MADISON", "KMBO", "MBO", "None", "32.26N", "090.06W", "100", "US"],
  ["MS MAGNOLIA", "KMHZ", "MHZ", "None", "32.26N", "090.06W", "91", "US"],
  ["MS BRANDON/JACKSON", "KDGX", "DGX", "None", "32.17N", "089.59W", "186", "US"],
  ["MS MCCOMB", "KMCB", "MCB", "None", "31.11N", "090.28W", "124", "US"],
  ["MS MERIDIAN NAS", "KNMM", "NMM", "None", "32.32N", "088.34W", "97", "US"],
  ["MS MERIDIAN/KEY FLD", "KMEI", "MEI", "72234", "32.20N", "088.45W", "89", "US"],
  ["MS NATCHEZ/HARDY", "KHEZ", "HEZ", "None", "31.37N", "091.18W", "83", "US"],
  ["MS OLIVE BRANCH", "KOLV", "OLV", "None", "34.59N", "089.47W", "122", "US"],
  ["MS OKOLONA PROFILER", "None", "OKO", "74769", "34.04N", "088.51W", "125", "US"],
  ["MS OXFORD", "KUOX", "UOX", "None", "34.23N", "089.32W", "137", "US"],
  ["MS PASCAGOULA", "KPQL", "PQL", "None", "30.28N", "088.32W", "6", "US"],
  ["MS PASCAGOULA", "KPGL", "PGL", "None", "30.24N", "088.29W", "3", "US"],
  ["MS PINE BELT RGNL", "KPIB", "PIB", "None", "31.28N", "089.19W", "91", "US"],
  ["MS RAYMOND", "KJVW", "JVW", "None", "32.18N", "090.25W", "76", "US"],
  ["MS SIDON VOR", "KSQS", "SQS", "None", "33.28N", "090.17W", "42", "US"],
  ["MS STARKVILLE", "KSTF", "STF", "None", "33.26N", "088.51W", "102", "US"],
  ["MS TUNICA", "KUTA", "UTA", "None", "34.41N", "090.21W", "59", "US"],
  ["MS TUPELO", "KTUP", "TUP", "72332", "34.16N", "088.46W", "105", "US"],
  ["MS VICKSBURG", "KVKS", "VKS", "None", "32.14N", "090.56W", "32", "US"],
  ["MS WINONA", "K5A6", "5A6", "None", "33.28N", "089.44W", "111", "US"],
  ["MS GREENWOOD", "KGRW", "GRW", "None", "33.30N", "090.05W", "44", "US"],
  ["MS RAYMOND", "KM16", "M16", "None", "32.18N", "090.25W", "76", "US"],
  ["MS YAZOO CITY", "KYZO", "YZO", "None", "32.54N", "090.22W", "36", "US"],
  ["MS INNOVATOR OILP", "KMYT", "MYT", "None", "28.13N", "089.37W", "23", "US"],
  ["MS WEST DELTA 27A", "KDLP", "DLP", "None", "29.07N", "089.33W", "36", "US"],
  ["MT BAKER", "KBHK", "None", "None", "46.21N", "104.15W", "902", "US"],
  ["MT ENNIS BIG SKY", "KEKS", "EKS", "None", "45.16N", "111.39W", "1641", "US"],
  ["MT BILLINGS", "KBIL", "BIL", "72677", "45.48N", "108.33W", "1091", "US"],
  ["MT BILLINGS (WFO)", "KBYZ", "BYZ", "None", "45.48N", "108.33W", "1091", "US"],
  ["MT BOZEMAN", "KBZN", "BZN", "None", "45.47N", "111.10W", "1361", "US"],
  ["MT BROWNING", "K8S0", "8S0", "None", "48.36N", "113.07W", "1419", "US"],
  ["MT BUTTE", "KBTM", "BTM", "None", "45.58N", "112.30W", "1688", "US"],
  ["MT CHINOOK", "KS71", "S71", "None", "48.36N", "109.15W", "736", "US"],
  ["MT COLSTRIP", "KM46", "M46", "None", "45.51N", "106.43W", "1044", "US"],
  ["MT CUT BANK", "KCTB", "CTB", "None", "48.36N", "112.22W", "1175", "US"],
  ["MT DILLON", "KDLN", "DLN", "None", "45.15N", "112.33W", "1591", "US"],
  ["MT DRUMMOND", "K3DU", "3DU", "None", "46.40N", "113.09W", "1202", "US"],
  ["MT EKALAKA", "K97M", "97M", "None", "45.53N", "104.32W", "1068", "US"],
  ["MT EUREKA", "K88M", "88M", "None", "48.58N", "115.05W", "814", "US"],
  ["MT FORSYTH", "K1S3", "1S3", "None", "46.16N", "106.37W", "832", "US"]]

/-- `STATIONS` (database/stations.py 2117-2216). -/
noncomputable def stations21 : List StationRow := rows! [
  ["MT GLASGOW", "KGGW", "GGW", "72768", "48.13N", "106.37W", "694", "US"],
  ["MT GLENDIVE", "KGDV", "GDV", "None", "47.07N", "104.47W", "749", "US"],
  ["MT GRASS RANGE", "KMVH", "MVH", "None", "46.50N", "108.56W", "1355", "US"],
  ["MT GREAT FALLS/88D", "KTFX", "TFX", "72776", "47.28N", "111.23W", "1132", "US"],
  ["MT GREAT FALLS", "KGTF", "GTF", "72775", "47.28N", "111.23W", "1119", "US"],
  ["MT HAMILTON/RAVALLI", "K6S5", "6S5", "None", "46.15N", "114.08W", "1110", "US"],
  ["MT HARLOWTON", "K3HT", "3HT", "None", "46.25N", "109.49W", "1268", "US"],
  ["MT HAVRE", "KHVR", "HVR", "72777", "48.33N", "109.46W", "787", "US"],
  ["MT HELENA", "KHLN", "HLN", "72772", "46.36N", "111.59W", "1182", "US"],
  ["MT JORDAN", "KJDN", "JDN", "None", "47.20N", "106.57W", "801", "US"],
  ["MT KALISPELL", "KFCA", "FCA", "72779", "48.18N", "114.16W", "908", "US"],
  ["MT KALISPELL", "KGPI", "GPI", "None", "48.19N", "114.15W", "908", "US"],
  ["MT LAUREL", "K6S8", "6S8", "None", "45.42N", "108.46W", "1072", "US"],
  ["MT LEWISTOWN", "KLWT", "LWT", "None", "47.02N", "109.28W", "1270", "US"],
  ["MT LIBBY", "KS59", "S59", "None", "48.17N", "115.29W", "793", "US"],
  ["MT LIVINGSTON", "KLVM", "LVM", "None", "45.42N", "110.26W", "1418", "US"],
  ["MT MALMSTROM AFB", "KGFA", "GFA", "None", "47.30N", "111.10W", "1075", "US"],
  ["MT MALTA", "KM75", "M75", "None", "48.22N", "107.55W", "687", "US"],
  ["MT MILES CITY", "KMLS", "MLS", "74230", "46.26N", "105.53W", "801", "US"],
  ["MT MISSOULA CTY/88D", "KMSX", "MSX", "None", "47.02N", "113.59W", "2394", "US"],
  ["MT MISSOULA", "KMSO", "MSO", "72773", "46.55N", "114.06W", "975", "US"],
  ["MT PLAINS", "KS34", "S34", "None", "47.28N", "114.54W", "752", "US"],
  ["MT PLENTYWOOD", "KPWD", "PWD", "None", "48.47N", "104.31W", "686", "US"],
  ["MT POPLAR", "KPO1", "PO1", "None", "48.08N", "105.10W", "621", "US"],
  ["MT POWDER RIVER", "KQPR", "None", "None", "45.32N", "104.52W", "966", "US"],
  ["MT ROUNDUP", "KRPX", "RPX", "None", "46.28N", "108.33W", "1065", "US"],
  ["MT SCOBEY", "K9S2", "9S2", "None", "48.48N", "105.26W", "742", "US"],
  ["MT SIDNEY RICHLAND", "KSDY", "SDY", "None", "47.42N", "104.12W", "605", "US"],
  ["MT THOMPSON FALLS", "K3TH", "3TH", "None", "47.36N", "115.22W", "725", "US"],
  ["MT TWIN BRIDGES", "K7S1", "7S1", "None", "45.32N", "112.18W", "1456", "US"],
  ["MT WEST YELLOWSTONE", "KWEY", "WEY", "72676", "44.38N", "111.05W", "2031", "US"],
  ["MT WOLF POINT", "KOLF", "OLF", "None", "48.06N", "105.35W", "604", "US"],
  ["MT WEST YELLOWSTONE", "KWYS", "WYS", "None", "44.40N", "111.07W", "2025", "US"],
  ["MT YELLOWST/BILLING", "KBLX", "BLX", "None", "45.51N", "108.36W", "1097", "US"],
  ["MT BROADUS", "K4BQ", "4BQ", "72667", "45.26N", "105.24W", "922", "US"],
  ["MT HAMILTON/RAVALLI", "KHMM", "HMM", "None", "46.15N", "114.09W", "1110", "US"],
  ["MT MONIDA", "KMQM", "MQM", "None", "44.34N", "112.19W", "2068", "US"],
  ["NC AHOSKIE/TRI COUN", "KASJ", "ASJ", "None", "36.17N", "077.10W", "21", "US"],
  ["NC ALBEMARLE STANLY", "KVUJ", "VUJ", "None", "35.25N", "080.09W", "186", "US"],
  ["NC ANDREWS", "KRHP", "RHP", "None", "35.11N", "083.51W", "518", "US"],
  ["NC WADESBORO/ANSON", "KAFP", "AFP", "None", "35.01N", "080.05W", "92", "US"],
  ["NC ASHEBORO MUNI", "KHBI", "HBI", "None", "35.39N", "079.54W", "205", "US"],
  ["NC ASHEVILLE", "KAVL", "AVL", "72315", "35.26N", "082.32W", "670", "US"],
  ["NC BEAUFORT", "KMRH", "MRH", "None", "34.44N", "076.39W", "3", "US"],
  ["NC BOGUE/SWANSBORO", "KNJM", "NJM", "None", "34.40N", "077.01W", "7", "US"],
  ["NC BOONE WATAUGA CT", "KTNB", "TNB", "None", "36.12N", "081.39W", "911", "US"],
  ["NC BURLINGTON", "KBUY", "BUY", "None", "36.03N", "079.28W", "180", "US"],
  ["NC CAPE HATTERAS", "KHAT", "HAT", "72302", "35.16N", "075.32W", "3", "US"],
  ["NC CAPE HATTERAS", "None", "None", "72304", "35.16N", "075.32W", "3", "US"],
  ["NC CHAPEL HILL", "KIGX", "IGX", "None", "35.56N", "079.04W", "155", "US"],
  ["NC CHARLOTTE", "KCLT", "CLT", "72314", "35.13N", "080.57W", "220", "US"],
  ["NC CHERRY POINT", "KNKT", "NKT", "72309", "34.54N", "076.53W", "9", "US"],
  ["NC CLAYTON/RDU 88D", "KRAX", "RAX", "None", "35.40N", "078.29W", "106", "US"],
  ["NC CLINTON", "KCTZ", "CTZ", "None", "34.59N", "078.22W", "45", "US"],
  ["NC CONCORD REG ARPT", "KJQF", "JQF", "None", "35.23N", "080.43W", "210", "US"],
  ["NC CURRITUCK", "KONX", "ONX", "None", "36.24N", "076.01W", "5", "US"],
  ["NC DAVIDSON CTY AP", "KEXX", "EXX", "None", "35.47N", "080.18W", "223", "US"],
  ["NC EDENTON", "KEDE", "EDE", "None", "36.01N", "076.34W", "6", "US"],
  ["NC ELIZABETH CITY", "KECG", "ECG", "None", "36.16N", "076.11W", "11", "US"],
  ["NC ELIZABETHTOWN", "KEYF", "EYF", "None", "34.36N", "078.35W", "41", "US"],
  ["NC ENGELHARD", "K7W6", "7W6", "None", "35.34N", "075.57W", "2", "US"],
  ["NC ERWIN/HARNETT CO", "KHRJ", "HRJ", "None", "35.23N", "078.44W", "60", "US"],
  ["NC FAYETTEVILLE", "KFAY", "FAY", "None", "34.59N", "078.53W", "55", "US"],
  ["NC FORT BRAGG/SIMMO", "KFBG", "FBG", "74693", "35.07N", "078.55W", "74", "US"],
  ["NC GASTONIA", "KAKH", "AKH", "None", "35.12N", "081.09W", "243", "US"],
  ["NC GOLDSBORO/S. J.", "KGSB", "GSB", "None", "35.19N", "077.58W", "33", "US"],
  ["NC GOLDSBORO/WAYNE", "KGWW", "GWW", "None", "35.28N", "077.58W", "41", "US"],
  ["NC GREENSBORO", "KGSO", "GSO", "72317", "36.06N", "079.57W", "275", "US"],
  ["NC HATTERAS/MITCHEL", "KHSE", "HSE", "None", "35.14N", "075.37W", "3", "US"],
  ["NC HENDERSON/OXFORD", "KHNZ", "HNZ", "None", "36.22N", "078.32W", "161", "US"],
  ["NC HICKORY", "KHKY", "HKY", "None", "35.45N", "081.23W", "354", "US"],
  ["NC HOFFMAN/MACKALL", "KHFF", "HFF", "None", "35.01N", "079.30W", "115", "US"],
  ["NC JACKSONVILLE", "KOAJ", "OAJ", "None", "34.49N", "077.37W", "29", "US"],
  ["NC JEFFERSON", "KGEV", "GEV", "None", "36.26N", "081.25W", "969", "US"],
  ["NC KENANSVILLE/DUPL", "KDPL", "DPL", "None", "35.00N", "077.58W", "42", "US"],
  ["NC KILL DEVIL HILLS", "KFFA", "FFA", "None", "36.01N", "075.40W", "4", "US"],
  ["NC KINSTON/STALLING", "KISO", "ISO", "None", "35.19N", "077.37W", "29", "US"],
  ["NC LINCOLNTON", "KIPJ", "IPJ", "None", "35.29N", "081.10W", "267", "US"],
  ["NC LOUISBURG/FRANKL", "KLHZ", "LHZ", "None", "36.01N", "078.20W", "113", "US"],
  ["NC LUMBERTON", "KLBT", "LBT", "None", "34.36N", "079.04W", "37", "US"],
  ["NC MACON/FRANKLIN", "K1A5", "1A5", "None", "35.13N", "083.25W", "616", "US"],
  ["NC MANTEO/DARE CO", "KMQI", "MQI", "None", "35.55N", "075.42W", "4", "US"],
  ["NC MAXTON", "KMEB", "MEB", "None", "34.47N", "079.22W", "67", "US"],
  ["NC MONROE", "KEQY", "EQY", "None", "35.01N", "080.37W", "212", "US"],
  ["NC MOREHEAD/NEWPORT", "KMHX", "MHX", "72305", "34.46N", "076.52W", "9", "US"],
  ["NC MORGANTON/LENOIR", "KMRN", "MRN", "None", "35.49N", "081.37W", "387", "US"],
  ["NC MOUNT AIRY/SURRY", "KMWK", "MWK", "None", "36.28N", "080.33W", "380", "US"],
  ["NC NEW BERN", "KEWN", "EWN", "None", "35.04N", "077.03W", "3", "US"],
  ["NC NEW RIVER MCAS", "KNCA", "NCA", "None", "34.43N", "077.27W", "8", "US"],
  ["NC PINEY ISLAND", "KNBT", "NBT", "None", "35.01N", "076.28W", "5", "US"],
  ["NC PITT GREENVILLE", "KPGV", "PGV", "None", "35.37N", "077.24W", "8", "US"],
  ["NC POPE AFB", "KPOB", "POB", "72303", "35.10N", "079.01W", "66", "US"],
  ["NC RALEIGH/DURHAM", "KRDU", "RDU", "72306", "35.54N", "078.47W", "130", "US"],
  ["NC RALEIGH/WFO", "KRAH", "RAH", "None", "35.52N", "078.47W", "133", "US"],
  ["NC REIDSVILLE", "KSIF", "SIF", "None", "36.26N", "079.51W", "211", "US"],
  ["NC ROANOKE RAPIDS", "KRZZ", "RZZ", "None", "36.26N", "077.43W", "75", "US"],
  ["NC HALIFAX NORTHAMP", "KIXA", "IXA", "None", "36.20N", "077.38W", "44", "US"],
  ["NC ROCKINGHAM", "KRCZ", "RCZ", "None", "34.53N", "079.46W", "109", "US"],
  ["NC ROCKY MOUNT", "KRWI", "RWI", "None", "35.51N", "077.54W", "47", "US"],
  ["NC ROXBORO PERSON", "KTDF", "TDF", "None", "36.17N", "078.59W", "186", "US"]]

/-- `STATIONS` (database/stations.py 2217-2316). -/
noncomputable def stations22 : List StationRow := rows! [
  ["NC RUTHERFORDTON", "KFQD", "FQD", "None", "35.25N", "081.56W", "329", "US"],
  ["NC SALISBURY ROWAN", "KRUQ", "RUQ", "None", "35.39N", "080.31W", "236", "US"],
  ["NC SANFORD", "KTTA", "TTA", "None", "35.35N", "079.06W", "75", "US"],
  ["NC SHALLOTTE/WILM.", "KLTX", "LTX", "None", "33.59N", "078.26W", "20", "US"],
  ["NC SHELBY MUNI", "KEHO", "EHO", "None", "35.15N", "081.36W", "258", "US"],
  ["NC SILER CITY", "KSCR", "SCR", "None", "35.42N", "079.30W", "188", "US"],
  ["NC SOUTHERN PINES", "KSOP", "SOP", "None", "35.13N", "079.24W", "141", "US"],
  ["NC SMITHFIELD JOHNS", "KJNX", "JNX", "None", "35.32N", "078.23W", "50", "US"],
  ["NC STATESVILLE", "KSVH", "SVH", "None", "35.45N", "080.57W", "294", "US"],
  ["NC STUMPY POINT", "K2DP", "2DP", "74695", "35.41N", "075.54W", "3", "US"],
  ["NC SOUTHPORT", "KSUT", "SUT", "None", "33.56N", "078.05W", "8", "US"],
  ["NC SYLVA", "K24A", "24A", "None", "35.19N", "083.13W", "871", "US"],
  ["NC TARBORO", "KETC", "ETC", "None", "35.56N", "077.33W", "17", "US"],
  ["NC WASHINGTON", "KOCW", "OCW", "None", "35.34N", "077.03W", "12", "US"],
  ["NC WHITEVILLE", "KCPC", "CPC", "None", "34.17N", "078.43W", "29", "US"],
  ["NC WILKESBORO", "KUKF", "UKF", "None", "36.13N", "081.06W", "396", "US"],
  ["NC WILMINGTON", "KILM", "ILM", "None", "34.16N", "077.54W", "9", "US"],
  ["NC WINSTON SALEM", "KINT", "INT", "72319", "36.08N", "080.13W", "291", "US"],
  ["NC ANDREWS", "K6A3", "6A3", "None", "35.11N", "083.51W", "518", "US"],
  ["NC ASHEBORO", "KW44", "W44", "None", "35.39N", "080.06W", "205", "US"],
  ["NC BOGUE FLD (KQAJ)", "None", "None", "None", "34.40N", "077.02W", "7", "US"],
  ["NC CAPE LOOKOUT", "None", "None", "99416", "34.36N", "076.28W", "5", "US"],
  ["NC CURRITUCK", "K9W7", "9W7", "None", "36.24N", "076.01W", "5", "US"],
  ["NC DIAMOND SHORES", "K44W", "44W", "74696", "35.09N", "075.42W", "5", "US"],
  ["NC DIAMOND SHOALS", "None", "None", "99403", "35.09N", "075.42W", "1", "US"],
  ["NC ERWIN/HARNETT CO", "K37W", "37W", "None", "35.22N", "078.43W", "60", "US"],
  ["NC FRYING PAN SHOA", "None", "None", "99404", "33.28N", "077.25W", "1", "US"],
  ["NC HOT SPRINGS", "KHSS", "HSS", "None", "35.54N", "082.49W", "451", "US"],
  ["NC REIDSVILLE", "K78N", "78N", "None", "36.26N", "079.51W", "211", "US"],
  ["NC ROCKINGHAM", "K45J", "45J", "None", "34.53N", "079.46W", "109", "US"],
  ["NC SILER CITY", "K5W8", "5W8", "None", "35.42N", "079.30W", "188", "US"],
  ["NC WALLACE", "KACZ", "ACZ", "None", "34.44N", "078.00W", "30", "US"],
  ["ND BEACH", "K20U", "20U", "None", "46.56N", "103.59W", "840", "US"],
  ["ND BISMARCK", "KBIS", "BIS", "72764", "46.46N", "100.45W", "505", "US"],
  ["ND BOWMAN MUNI", "KBPP", "BPP", "None", "46.11N", "103.26W", "902", "US"],
  ["ND CANDO", "K9D7", "9D7", "None", "48.29N", "099.14W", "452", "US"],
  ["ND CARRINGTON", "K46D", "46D", "None", "47.27N", "099.09W", "490", "US"],
  ["ND CAVALIER", "K2C8", "2C8", "None", "48.47N", "097.38W", "272", "US"],
  ["ND COOPERSTOWN", "KS32", "S32", "None", "47.25N", "098.06W", "684", "US"],
  ["ND CROSBY", "KD50", "D50", "None", "48.56N", "103.18W", "595", "US"],
  ["ND DEVILS LAKE", "KDVL", "DVL", "72757", "48.07N", "098.55W", "443", "US"],
  ["ND DEVILS LAKE", "KP11", "P11", "72758", "48.07N", "098.55W", "443", "US"],
  ["ND DICKINSON", "KDIK", "DIK", "None", "46.48N", "102.48W", "788", "US"],
  ["ND FARGO", "KFAR", "FAR", "72753", "46.56N", "096.49W", "277", "US"],
  ["ND FARGO/GRAND FORK", "KFGF", "FGF", "None", "46.54N", "096.48W", "274", "US"],
  ["ND GARRISON", "KN60", "N60", "None", "47.39N", "101.26W", "582", "US"],
  ["ND GLEN ULLIN", "KD57", "D57", "None", "46.49N", "101.52W", "637", "US"],
  ["ND GRAFTON", "KGAF", "GAF", "None", "48.24N", "097.22W", "252", "US"],
  ["ND GRAND FORKS AFB", "KRDR", "RDR", "None", "47.58N", "097.24W", "278", "US"],
  ["ND GRAND FORKS", "KGFK", "GFK", "None", "47.57N", "097.11W", "258", "US"],
  ["ND GWINNER", "KGWR", "GWR", "None", "46.13N", "097.39W", "386", "US"],
  ["ND HARVEY", "K5H4", "5H4", "None", "47.47N", "099.56W", "490", "US"],
  ["ND HAZEN", "KHZE", "HZE", "None", "47.17N", "101.35W", "553", "US"],
  ["ND HETTINGER", "KHEI", "HEI", "None", "46.01N", "102.39W", "828", "US"],
  ["ND JAMESTOWN", "KJMS", "JMS", "None", "46.56N", "098.40W", "455", "US"],
  ["ND LANGDON/ROBERTSN", "KD55", "D55", "None", "48.45N", "098.24W", "491", "US"],
  ["ND LIDGERWOOD (RAMO", "KP67", "P67", "None", "46.06N", "097.09W", "351", "US"],
  ["ND LINTON", "K7L2", "7L2", "None", "46.13N", "100.15W", "543", "US"],
  ["ND MANDAN", "KY19", "Y19", "None", "46.46N", "100.54W", "593", "US"],
  ["ND MAYVILLE/FARGO", "KMVX", "MVX", "None", "47.32N", "097.20W", "301", "US"],
  ["ND MCHENRY CY/MINOT", "KMBX", "MBX", "None", "48.24N", "100.52W", "455", "US"],
  ["ND MINOT AFB", "KMIB", "MIB", "None", "48.25N", "101.20W", "508", "US"],
  ["ND MINOT", "KMOT", "MOT", "None", "48.15N", "101.16W", "519", "US"],
  ["ND OAKES", "K2D5", "2D5", "None", "46.10N", "098.05W", "407", "US"],
  ["ND ROLLA", "K06D", "06D", "None", "48.53N", "099.37W", "556", "US"],
  ["ND RUGBY", "KRUG", "RUG", "None", "48.23N", "100.01W", "472", "US"],
  ["ND STANLEY", "K08D", "08D", "None", "48.18N", "102.24W", "684", "US"],
  ["ND TIOGA", "KD60", "D60", "None", "48.23N", "102.54W", "693", "US"],
  ["ND VALLEY CITY", "KBAC", "BAC", "None", "46.56N", "098.01W", "684", "US"],
  ["ND WALHALLA", "K96D", "96D", "None", "48.56N", "097.54W", "290", "US"],
  ["ND WATFORD CITY", "KS25", "S25", "None", "47.48N", "103.15W", "644", "US"],
  ["ND WILLISTON", "KISN", "ISN", "72767", "48.10N", "103.38W", "579", "US"],
  ["ND ROSEGLEN", "KP24", "P24", "72765", "47.45N", "101.50W", "624", "US"],
  ["ND WAHPETON", "KBWP", "BWP", "None", "46.15N", "096.37W", "295", "US"],
  ["NE AINSWORTH MUNICI", "KANW", "ANW", "None", "42.34N", "100.00W", "789", "US"],
  ["NE ALBION MUNI", "KBVN", "BVN", "None", "41.44N", "098.03W", "551", "US"],
  ["NE ALLIANCE", "KAIA", "AIA", "None", "42.03N", "102.48W", "1196", "US"],
  ["NE AURORA", "KAUH", "AUH", "None", "40.53N", "098.00W", "550", "US"],
  ["NE BEATRICE MUNICIP", "KBIE", "BIE", "None", "40.17N", "096.45W", "403", "US"],
  ["NE BLAIR MUNI", "KBTA", "BTA", "None", "41.25N", "096.07W", "396", "US"],
  ["NE BROKEN BOW MUNI", "KBBW", "BBW", "None", "41.26N", "099.38W", "776", "US"],
  ["NE CHADRON", "KCDR", "CDR", "None", "42.50N", "103.06W", "1010", "US"],
  ["NE COLUMBUS MUNI", "KOLU", "OLU", "None", "41.27N", "097.19W", "440", "US"],
  ["NE FAIRBURY PROFILE", "None", "FBY", "74440", "40.04N", "097.19W", "433", "US"],
  ["NE FALLS CITY/BRENN", "KFNB", "FNB", "None", "40.04N", "095.35W", "300", "US"],
  ["NE FREMONT MUNI ARP", "KFET", "FET", "None", "41.27N", "096.31W", "367", "US"],
  ["NE GORDON", "KGRN", "GRN", "None", "42.48N", "102.11W", "1086", "US"],
  ["NE GRAND ISLAND", "KGRI", "GRI", "72552", "40.58N", "098.19W", "561", "US"],
  ["NE GRAND ISLAND/WFO", "KGID", "GID", "None", "40.58N", "098.19W", "563", "US"],
  ["NE HASTINGS", "KHSI", "HSI", "None", "40.36N", "098.26W", "591", "US"],
  ["NE HEBRON MUNI", "KHJH", "HJH", "None", "40.09N", "097.35W", "447", "US"],
  ["NE HOLDREGE/BREWSTR", "KHDE", "HDE", "None", "40.27N", "099.19W", "705", "US"],
  ["NE IMPERIAL MUNICIP", "KIML", "IML", "None", "40.31N", "101.37W", "998", "US"],
  ["NE KEARNEY MUNI", "KEAR", "EAR", "None", "40.43N", "099.00W", "649", "US"],
  ["NE KIMBALL MUNI", "KIBM", "IBM", "None", "41.11N", "103.41W", "1501", "US"],
  ["NE LEXINGTON", "KLXN", "LXN", "None", "40.47N", "099.46W", "734", "US"],
  ["NE LINCOLN", "KLNK", "LNK", "72551", "40.51N", "096.46W", "364", "US"],
  ["NE MCCOOK", "KMCK", "MCK", "None", "40.12N", "100.35W", "782", "US"],
  ["NE MCCOOK PROFILER", "None", "RWD", "74433", "40.04N", "100.39W", "800", "US"],
  ["NE MERRIMAN PROFILE", "None", "MRR", "74437", "42.53N", "101.41W", "991", "US"]]

/-- `STATIONS` (database/stations.py 2317-2416). -/
noncomputable def stations23 : List StationRow := rows! [
  ["NE NEBRASKA CITY", "KAFK", "AFK", "None", "40.36N", "095.51W", "354", "US"],
  ["NE NELIGH PROFILER", "None", "NLG", "74445", "42.12N", "097.47W", "524", "US"],
  ["NE NORFOLK", "KOFK", "OFK", "72556", "41.59N", "097.26W", "470", "US"],
  ["NE NORTH OMAHA", "KOVN", "OVN", "72553", "41.22N", "096.01W", "406", "US"],
  ["NE NORTH PLATTE", "KLBF", "LBF", "72562", "41.07N", "100.40W", "847", "US"],
  ["NE O'NEILL", "KONL", "ONL", "None", "42.28N", "098.40W", "619", "US"],
  ["NE OFFUTT/AFWA", "KGWC", "GWC", "None", "41.07N", "095.55W", "319", "US"],
  ["NE OFFUTT AFB/BELLE", "KOFF", "OFF", "72554", "41.07N", "095.55W", "319", "US"],
  ["NE OGALLALA", "KOGA", "OGA", "None", "41.07N", "101.46W", "999", "US"],
  ["NE OMAHA/EPPLEY", "KOMA", "OMA", "72550", "41.19N", "095.54W", "312", "US"],
  ["NE OMAHA/VALLEY/88D", "KOAX", "None", "72558", "41.19N", "096.22W", "350", "US"],
  ["NE OMAHA VOR", "KOVR", "OVR", "None", "41.10N", "095.44W", "312", "US"],
  ["NE OMAHA/MILLARD", "KMLE", "MLE", "None", "41.12N", "096.07W", "320", "US"],
  ["NE ORD/SHARP FIELD", "KODX", "ODX", "None", "41.37N", "098.57W", "631", "US"],
  ["NE PAWNEE CITY", "KPWE", "PWE", "None", "40.12N", "096.12W", "415", "US"],
  ["NE PLATTSMOUTH MUNI", "KPMV", "PMV", "None", "40.57N", "095.55W", "367", "US"],
  ["NE SCOTTSBLUFF", "KBFF", "BFF", "72566", "41.52N", "103.35W", "1203", "US"],
  ["NE SIDNEY", "KSNY", "SNY", "72561", "41.06N", "102.59W", "1307", "US"],
  ["NE TEKAMAH", "KTQE", "TQE", "None", "41.46N", "096.11W", "312", "US"],
  ["NE THEDFORD/LBF/88D", "KLNX", "LNX", "None", "41.57N", "100.35W", "905", "US"],
  ["NE THEDFORD/THOMAS", "KTIF", "TIF", "None", "41.58N", "100.34W", "892", "US"],
  ["NE VALENTINE", "KVTN", "VTN", "72567", "42.52N", "100.33W", "788", "US"],
  ["NE WAHOO", "KAHQ", "AHQ", "None", "41.14N", "096.36W", "374", "US"],
  ["NE WAYNE MUNI", "KLCG", "LCG", "None", "42.15N", "096.59W", "436", "US"],
  ["NE WEBSTER CNTY/88D", "KUEX", "UEX", "None", "40.19N", "098.27W", "602", "US"],
  ["NE WOLBACH (VOR)", "KOBH", "OBH", "None", "41.23N", "098.21W", "670", "US"],
  ["NE YORK", "KJYR", "JYR", "None", "40.54N", "097.37W", "509", "US"],
  ["NE BENKELMAN-JONES", "K42V", "42V", "None", "40.03N", "101.32W", "953", "US"],
  ["NE BLAIR MUNI", "KK46", "K46", "None", "41.25N", "096.07W", "396", "US"],
  ["NE BURWELL", "KBUB", "BUB", "72555", "41.47N", "099.09W", "664", "US"],
  ["NE COZAD", "KCZD", "CZD", "None", "40.52N", "100.00W", "800", "US"],
  ["NE MULLEN", "KMHN", "MHN", "None", "42.03N", "101.04W", "994", "US"],
  ["NE SIDNEY", "None", "None", "72563", "41.06N", "102.59W", "1307", "US"],
  ["NE CHAMPION", "KCHM", "CHM", "None", "40.23N", "101.43W", "1029", "US"],
  ["NH BERLIN", "KBML", "BML", "72616", "44.35N", "071.11W", "345", "US"],
  ["NH CONCORD", "KCON", "CON", "72605", "43.12N", "071.30W", "103", "US"],
  ["NH JAFFREY", "KAFN", "AFN", "None", "42.48N", "072.00W", "313", "US"],
  ["NH KEENE/DILLANT", "KEEN", "EEN", "None", "42.53N", "072.16W", "149", "US"],
  ["NH LACONIA MUNI", "KLCI", "LCI", "None", "43.34N", "071.25W", "166", "US"],
  ["NH LEBANON", "KLEB", "LEB", "72611", "43.38N", "072.18W", "171", "US"],
  ["NH MANCHESTER", "KMHT", "MHT", "None", "42.56N", "071.26W", "81", "US"],
  ["NH MOUNT WASHINGTON", "KMWN", "MWN", "72613", "44.16N", "071.18W", "1910", "US"],
  ["NH NASHUA/BOIRE FLD", "KASH", "ASH", "None", "42.47N", "071.31W", "61", "US"],
  ["NH NASHUA/ARTCC-BOS", "KZBW", "ZBW", "None", "42.44N", "071.29W", "61", "US"],
  ["NH PLYMOUTH", "K1P1", "1P1", "None", "43.47N", "071.45W", "154", "US"],
  ["NH PORTSMOUTH/PEASE", "KPSM", "PSM", "None", "43.04N", "070.49W", "31", "US"],
  ["NH ROCHESTER", "KDAW", "DAW", "None", "43.17N", "070.55W", "100", "US"],
  ["NH WHITEFIELD", "KHIE", "HIE", "None", "44.22N", "071.33W", "318", "US"],
  ["NH DIAMOND LAKE", "K8B2", "8B2", "None", "44.57N", "071.19W", "678", "US"],
  ["NH ISLE OF SHOALS", "None", "None", "99427", "42.58N", "070.22W", "13", "US"],
  ["NH NORTH GROTON", "KNGR", "NGR", "None", "43.46N", "071.52W", "390", "US"],
  ["NH ROCHESTER", "K6B1", "6B1", "None", "43.17N", "070.55W", "100", "US"],
  ["NH TAMWORTH", "KTMW", "TMW", "None", "43.54N", "071.18W", "241", "US"],
  ["NJ ALEXANDRIA", "KN85", "N85", "None", "40.35N", "075.01W", "146", "US"],
  ["NJ ANDOVER", "K12N", "12N", "None", "41.01N", "074.44W", "177", "US"],
  ["NJ ATLANTIC CITY", "KACY", "ACY", "72407", "39.27N", "074.34W", "23", "US"],
  ["NJ BELMAR/FARMDALE", "KBLM", "BLM", "None", "40.10N", "074.07W", "48", "US"],
  ["NJ BLAIRSTOWN", "K1N7", "1N7", "None", "40.58N", "075.00W", "113", "US"],
  ["NJ CALDWELL", "KCDW", "CDW", "None", "40.53N", "074.17W", "64", "US"],
  ["NJ COYLE VOR", "KCYN", "CYN", "None", "39.49N", "074.26W", "70", "US"],
  ["NJ CROSS KEYS", "K17N", "17N", "None", "39.42N", "075.02W", "49", "US"],
  ["NJ HAMMONTON", "KN81", "N81", "None", "39.40N", "074.45W", "20", "US"],
  ["NJ LAKEHURST NAS", "KNEL", "NEL", "72409", "40.01N", "074.20W", "31", "US"],
  ["NJ LAKEWOOD", "KN12", "N12", "None", "40.04N", "074.11W", "13", "US"],
  ["NJ LINCOLN PARK", "KN07", "N07", "None", "40.57N", "074.19W", "56", "US"],
  ["NJ LINDEN", "KLDJ", "LDJ", "None", "40.37N", "074.15W", "7", "US"],
  ["NJ LUMBERTON", "KN14", "N14", "None", "39.56N", "074.48W", "15", "US"],
  ["NJ MANCHESTER 88D", "KDIX", "DIX", "None", "39.57N", "074.25W", "45", "US"],
  ["NJ MANVILLE", "K47N", "47N", "None", "40.31N", "074.36W", "26", "US"],
  ["NJ MILLVILLE", "KMIV", "MIV", "None", "39.22N", "075.05W", "23", "US"],
  ["NJ MORRISTOWN MUNI", "KMMU", "MMU", "None", "40.47N", "074.25W", "57", "US"],
  ["NJ MOUNT HOLLY", "KVAY", "VAY", "None", "39.56N", "074.50W", "15", "US"],
  ["NJ MT HOLLY/PHL/WFO", "KPHI", "PHI", "None", "40.01N", "074.49W", "4", "US"],
  ["NJ NEWARK", "KEWR", "EWR", "72502", "40.41N", "074.10W", "7", "US"],
  ["NJ OCEAN CITY", "K26N", "26N", "None", "39.16N", "074.36W", "2", "US"],
  ["NJ OLD BRIDGE", "K3N6", "3N6", "None", "40.20N", "074.21W", "27", "US"],
  ["NJ PITTSTOWN", "KN40", "N40", "None", "40.34N", "074.59W", "171", "US"],
  ["NJ PRINCETON", "K39N", "39N", "None", "40.24N", "074.40W", "39", "US"],
  ["NJ ROBBINSVILLE", "KN87", "N87", "None", "40.13N", "074.36W", "36", "US"],
  ["NJ SEA ISLE VOR", "KSIE", "SIE", "None", "39.06N", "074.48W", "30", "US"],
  ["NJ SOMERVILLE", "KSMQ", "SMQ", "None", "40.37N", "074.40W", "30", "US"],
  ["NJ SPARTA VOR", "KSAX", "SAX", "None", "41.04N", "074.32W", "30", "US"],
  ["NJ SUSSEX", "KFWN", "FWN", "None", "41.12N", "074.38W", "133", "US"],
  ["NJ TETERBORO", "KTEB", "TEB", "None", "40.52N", "074.03W", "7", "US"],
  ["NJ TOMS RIVER", "KMJX", "MJX", "None", "39.56N", "074.18W", "25", "US"],
  ["NJ TRENTON", "KTTN", "TTN", "None", "40.17N", "074.49W", "59", "US"],
  ["NJ WEST MILFORD", "K4N1", "4N1", "None", "41.08N", "074.21W", "241", "US"],
  ["NJ WILDWOOD", "KWWD", "WWD", "None", "39.01N", "074.55W", "7", "US"],
  ["NJ WOODBINE MUNI", "KOBI", "OBI", "None", "39.13N", "074.48W", "13", "US"],
  ["NJ WRIGHTST/MCGUIRE", "KWRI", "WRI", "None", "40.01N", "074.35W", "41", "US"],
  ["NJ NEW BRUNSWICK", "KNBK", "NBK", "None", "40.29N", "074.26W", "5", "US"],
  ["NJ SANDY HOOK CGS", "K56N", "56N", "None", "40.28N", "074.01W", "5", "US"],
  ["NJ SOMERVILLE", "KN52", "N52", "None", "40.37N", "074.40W", "30", "US"],
  ["NJ SUSSEX", "KN63", "N63", "None", "41.12N", "074.36W", "119", "US"],
  ["NJ SOMERVILLE", "KSJB", "SJB", "None", "40.37N", "074.40W", "30", "US"],
  ["NM GALLUP", "KGUP", "GUP", "None", "35.31N", "108.48W", "1971", "US"],
  ["NM ALAMOGORDO WHITE", "KALM", "ALM", "72269", "32.49N", "105.58W", "1279", "US"],
  ["NM ALBUQUERQUE", "KABQ", "ABQ", "72365", "35.03N", "106.37W", "1618", "US"],
  ["NM ALBUQUERQUE/88D", "KABX", "ABX", "None", "35.09N", "106.49W", "1789", "US"],
  ["NM KIRTLAND AFB-ABQ", "KIKR", "IKR", "None", "35.03N", "106.36W", "1613", "US"]]

/-- `STATIONS` (database/stations.py 2417-2516). -/
noncomputable def stations24 : List StationRow := rows! [
  ["NM ALBUQUERQU/ARTCC", "KZAB", "ZAB", "None", "35.10N", "106.34W", "1621", "US"],
  ["NM ANGEL FIRE", "KAXX", "AXX", "None", "36.25N", "105.17W", "2548", "US"],
  ["NM ARTESIA", "KATS", "ATS", "None", "32.51N", "104.28W", "1081", "US"],
  ["NM AZTEC PROFILER", "None", "AZC", "74630", "36.49N", "107.54W", "1902", "US"],
  ["NM BELEN", "KE80", "E80", "None", "34.39N", "106.50W", "1582", "US"],
  ["NM CANNON AFB/CLOVI", "KCVS", "CVS", "None", "34.22N", "103.19W", "1309", "US"],
  ["NM CANNON AFB/88D", "KFDX", "FDX", "None", "34.38N", "103.37W", "1417", "US"],
  ["NM CARLSBAD", "KCNM", "CNM", "None", "32.20N", "104.15W", "985", "US"],
  ["NM CHAMA (AWRS)", "KE33", "E33", "None", "36.53N", "106.34W", "2393", "US"],
  ["NM CHISUM/ROSWELL", "KCME", "CME", "None", "33.20N", "104.37W", "1150", "US"],
  ["NM CIMARRON (VOR)", "KCIM", "CIM", "None", "36.29N", "104.52W", "2183", "US"],
  ["NM CLAYTON", "KCAO", "CAO", "72360", "36.27N", "103.09W", "1514", "US"],
  ["NM CLINES CORNERS", "KCQC", "CQC", "None", "35.00N", "105.40W", "2160", "US"],
  ["NM CLOVIS MUNI", "KCVN", "CVN", "None", "34.25N", "103.04W", "1284", "US"],
  ["NM CORONA/LINCOLN", "K4CR", "4CR", "None", "34.06N", "105.40W", "1981", "US"],
  ["NM DEMING", "KDMN", "DMN", "None", "32.16N", "107.43W", "1311", "US"],
  ["NM DOUBLE EAGLE II", "KAEG", "AEG", "None", "35.08N", "106.48W", "1779", "US"],
  ["NM FARMINGTON", "KFMN", "FMN", "None", "36.45N", "108.14W", "1685", "US"],
  ["NM RATTLESNAKE-FMN", "KRSK", "RSK", "None", "36.45N", "108.06W", "1775", "US"],
  ["NM GRANTS", "KGNT", "GNT", "None", "35.10N", "107.54W", "1987", "US"],
  ["NM HOBBS/LEA CO.", "KHOB", "HOB", "None", "32.40N", "103.13W", "1115", "US"],
  ["NM HOLLOMAN AFB", "KHMN", "HMN", "74732", "32.51N", "106.05W", "1248", "US"],
  ["NM LAS CRUCES INTL", "KLRU", "LRU", "None", "32.16N", "106.55W", "1358", "US"],
  ["NM LAS VEGAS", "KLVS", "LVS", "None", "35.39N", "105.08W", "2091", "US"],
  ["NM LORDSBURG", "KLSB", "LSB", "None", "32.20N", "108.42W", "1307", "US"],
  ["NM FT UNION/VEGAS", "KFTI", "FTI", "None", "35.39N", "105.08W", "2094", "US"],
  ["NM LOS ALAMOS", "KLAM", "LAM", "None", "35.52N", "106.16W", "2179", "US"],
  ["NM MCGREGOR RANGE", "KM63", "M63", "None", "32.03N", "106.09W", "1283", "US"],
  ["NM MELROSE G RANGE", "K4MR", "4MR", "74638", "34.18N", "103.48W", "1326", "US"],
  ["NM MORIARTY", "K4MY", "4MY", "None", "34.59N", "106.00W", "1890", "US"],
  ["NM MORIARTY", "K0E0", "0E0", "None", "34.59N", "106.00W", "1890", "US"],
  ["NM RATON", "KRTN", "RTN", "None", "36.44N", "104.30W", "1936", "US"],
  ["NM ROSWELL", "KROW", "ROW", "72268", "33.18N", "104.30W", "1112", "US"],
  ["NM SIERRA B/RUIDOSO", "KSRR", "SRR", "None", "33.28N", "105.31W", "2076", "US"],
  ["NM SANTA FE", "KSAF", "SAF", "None", "35.37N", "106.06W", "1930", "US"],
  ["NM SANTA ROSA US66", "KSXU", "SXU", "None", "34.56N", "104.39W", "1460", "US"],
  ["NM SANTA TERESA/88D", "KEPZ", "EPZ", "72364", "31.52N", "106.42W", "1251", "US"],
  ["NM SANTA TERESA", "KDNA", "DNA", "None", "31.53N", "106.42W", "1254", "US"],
  ["NM SILVER CITY", "KSVC", "SVC", "72272", "32.38N", "108.09W", "1659", "US"],
  ["NM SOCORRO", "KONM", "ONM", "72362", "34.01N", "106.54W", "1410", "US"],
  ["NM TAOS MUNI APT", "KSKX", "SKX", "None", "36.27N", "105.40W", "2161", "US"],
  ["NM TORREON/CUBA", "K4SL", "4SL", "None", "35.47N", "107.10W", "2106", "US"],
  ["NM TRUTH OR CONSEQ.", "KTCS", "TCS", "72271", "33.14N", "107.16W", "1469", "US"],
  ["NM TUCUMCARI PROFIL", "None", "TCU", "74731", "35.04N", "103.35W", "1241", "US"],
  ["NM TUCUMCARI", "KTCC", "TCC", "None", "35.11N", "103.36W", "1235", "US"],
  ["NM W SANDS/HOLLOMAN", "KHDX", "HDX", "None", "33.05N", "106.07W", "1287", "US"],
  ["NM WHITE SANDS PROF", "None", "WSM", "74629", "32.23N", "106.20W", "1224", "US"],
  ["NM WHITE SANDS TEST", "K2C2", "2C2", "74734", "32.22N", "106.28W", "1244", "US"],
  ["NM CLINES CORNERS", "KP70", "P70", "None", "34.55N", "105.34W", "2109", "US"],
  ["NM WHITE SANDS", "KE28", "E28", "74733", "32.56N", "106.25W", "1192", "US"],
  ["NM TAOS(AWRS)", "KE23", "E23", "None", "36.25N", "105.34W", "2123", "US"],
  ["NM ZUNI PUEBLO", "KZUN", "ZUN", "None", "35.05N", "108.47W", "1972", "US"],
  ["NM SANTA TERESA", "K5T6", "5T6", "None", "31.53N", "106.42W", "1253", "US"],
  ["NM MCGREGOR RANGE", "KQMG", "None", "None", "32.03N", "106.09W", "1283", "US"],
  ["NM TATUM NM 2SW", "XTAT", "None", "None", "33.14N", "103.21W", "1225", "US"],
  ["NM DORA 2SW", "XDR1", "None", "None", "33.55N", "103.21W", "1317", "US"],
  ["NM HOBBS 5NW", "XHO1", "None", "None", "32.46N", "103.11W", "1125", "US"],
  ["NM ENDEE 2SW", "XEN1", "None", "None", "35.06N", "103.07W", "1204", "US"],
  ["NV AUSTIN", "KU31", "U31", "None", "39.30N", "117.04W", "2014", "US"],
  ["NV BATTLE MOUNTAIN", "KB23", "B23", "None", "40.36N", "116.52W", "1381", "US"],
  ["NV BATTLE MTN (VOR)", "KBAM", "BAM", "None", "40.34N", "116.55W", "1381", "US"],
  ["NV BEATTY", "KBTY", "BTY", "None", "36.48N", "116.44W", "892", "US"],
  ["NV BOULDER CITY", "KBVU", "BVU", "None", "35.57N", "114.52W", "671", "US"],
  ["NV CARSON CITY", "KCXP", "CXP", "None", "39.11N", "119.44W", "1435", "US"],
  ["NV COALDALE (VOR)", "KOAL", "OAL", "None", "38.00N", "117.46W", "1600", "US"],
  ["NV DESERT R/MERCURY", "KDRA", "DRA", "72387", "36.37N", "116.02W", "1006", "US"],
  ["NV ELKO", "KEKO", "EKO", "None", "40.49N", "115.47W", "1547", "US"],
  ["NV ELKO/WFO", "KLKN", "LKN", "72582", "40.52N", "115.43W", "1608", "US"],
  ["NV ELKO/LANDER 88D", "KLRX", "LRX", "None", "40.44N", "116.48W", "2056", "US"],
  ["NV ELY", "KELY", "ELY", "72486", "39.18N", "114.51W", "1906", "US"],
  ["NV EUREKA", "K05U", "05U", "None", "39.36N", "116.00W", "1816", "US"],
  ["NV EUREKA", "KP68", "P68", "None", "39.36N", "116.00W", "1809", "US"],
  ["NV FALLON NAS", "KNFL", "NFL", "None", "39.25N", "118.42W", "1199", "US"],
  ["NV HAWTHORNE", "KHTH", "HTH", "None", "38.33N", "118.38W", "1285", "US"],
  ["NV INDIAN SPRINGS", "KINS", "INS", "None", "36.35N", "115.40W", "955", "US"],
  ["NV IND SPRNG RANGE", "KL63", "L63", "69017", "36.31N", "115.34W", "972", "US"],
  ["NV LAS VEGAS", "KLAS", "LAS", "72386", "36.04N", "115.10W", "636", "US"],
  ["NV LAS VEGAS/NELLIS", "KLSV", "LSV", "None", "36.13N", "115.01W", "570", "US"],
  ["NV LAS VEGAS/NELSON", "KESX", "ESX", "None", "35.42N", "114.53W", "1483", "US"],
  ["NV VEGAS/HENDERSON", "KHND", "HND", "None", "35.59N", "115.08W", "749", "US"],
  ["NV LAS VEGAS/WFO", "KVEF", "VEF", "72388", "36.03N", "115.11W", "694", "US"],
  ["NV LOVELOCK", "KLOL", "LOL", "72580", "40.04N", "118.34W", "1189", "US"],
  ["NV MINDEN", "KMEV", "MEV", "None", "39.00N", "119.45W", "1442", "US"],
  ["NV NORTH LAS VEGAS", "KVGT", "VGT", "None", "36.13N", "115.12W", "671", "US"],
  ["NV RENO", "KRNO", "RNO", "72488", "39.30N", "119.46W", "1342", "US"],
  ["NV RENO/WFO", "KREV", "REV", "72489", "39.34N", "119.48W", "1516", "US"],
  ["NV RENO/STEAD", "KRTS", "RTS", "None", "39.40N", "119.53W", "1540", "US"],
  ["NV RENO/WASHOE CTY", "KRGX", "RGX", "None", "39.45N", "119.28W", "2530", "US"],
  ["NV RENO(VOR)", "KFMG", "FMG", "None", "39.32N", "119.39W", "1342", "US"],
  ["NV TONOPAH", "KTPH", "TPH", "72485", "38.03N", "117.05W", "1652", "US"],
  ["NV TONOPAH RANGE74", "KBJN", "BJN", "72282", "37.37N", "116.16W", "1756", "US"],
  ["NV WELLS", "K9BB", "9BB", "None", "41.06N", "114.58W", "1723", "US"],
  ["NV WILDHORSE RES/EL", "KAWH", "AWH", "None", "41.40N", "115.46W", "1902", "US"],
  ["NV WILSON CREEK", "KILC", "ILC", "None", "38.15N", "114.23W", "2840", "US"],
  ["NV WINNEMUCCA", "KWMC", "WMC", "72583", "40.54N", "117.48W", "1310", "US"],
  ["NV YUCCA FLATS", "KYUC", "YUC", "None", "36.57N", "116.02W", "1198", "US"],
  ["NV YUCCA FLAT", "KUCC", "UCC", "72385", "36.57N", "116.03W", "1195", "US"],
  ["NV CALIENTE", "KP38", "P38", "72487", "37.37N", "114.32W", "1333", "US"],
  ["NV INDIAN SPRINGS", "KL76", "L76", "69018", "36.32N", "115.34W", "1153", "US"],
  ["NV JACKPOT", "K06U", "06U", "None", "41.59N", "114.39W", "1589", "US"]]

/-- `STATIONS` (database/stations.py 2517-2616). -/
noncomputable def stations25 : List StationRow := rows! [
  ["NV OWYHEE", "KOWY", "OWY", "72587", "41.57N", "116.06W", "1645", "US"],
  ["NV TONOPAH MILITARY", "KTNX", "TNX", "None", "37.47N", "116.46W", "1691", "US"],
  ["NY ALBANY", "KALB", "ALB", "72518", "42.45N", "073.48W", "92", "US"],
  ["NY ALBANY/E. BERNE", "KENX", "ENX", "None", "42.35N", "074.04W", "557", "US"],
  ["NY ALBANY/WFO", "KALY", "ALY", "None", "42.45N", "073.48W", "88", "US"],
  ["NY BINGHAMTON", "KBGM", "BGM", "72515", "42.13N", "075.59W", "490", "US"],
  ["NY BROOKHAVEN/UPTON", "KOKX", "OKX", "72501", "40.52N", "072.52W", "26", "US"],
  ["NY BROOKHAVEN/KBNL", "None", "None", "74498", "40.48N", "073.18W", "20", "US"],
  ["NY BUFFALO/CHEEKTOW", "KBUF", "BUF", "72528", "42.56N", "078.44W", "211", "US"],
  ["NY CANANDAIGUA", "KD38", "D38", "None", "42.54N", "077.19W", "248", "US"],
  ["NY CORTLAND", "KN03", "N03", "None", "42.36N", "076.13W", "366", "US"],
  ["NY DANSVILLE", "KDSV", "DSV", "72523", "42.34N", "077.43W", "198", "US"],
  ["NY DUNKIRK", "KDKK", "DKK", "99425", "42.30N", "079.17W", "202", "US"],
  ["NY EAST HAMPTON", "KHTO", "HTO", "None", "40.57N", "072.15W", "17", "US"],
  ["NY ELMIRA", "KELM", "ELM", "None", "42.09N", "076.54W", "302", "US"],
  ["NY ENDICOTT/TRI-CIT", "KCZG", "CZG", "None", "42.05N", "076.06W", "254", "US"],
  ["NY FARMINGDALE", "KFRG", "FRG", "None", "40.44N", "073.25W", "21", "US"],
  ["NY FORT DRUM/88D", "KTYX", "TYX", "None", "43.45N", "075.41W", "562", "US"],
  ["NY FORT DRUM/WHEELE", "KGTB", "GTB", "74370", "44.04N", "075.43W", "207", "US"],
  ["NY FULTON", "KFZY", "FZY", "None", "43.21N", "076.23W", "138", "US"],
  ["NY GLENS FALLS", "KGFL", "GFL", "None", "43.20N", "073.37W", "103", "US"],
  ["NY HAMILTON MUNICIP", "KVGC", "VGC", "None", "42.51N", "075.34W", "347", "US"],
  ["NY HANCOCK VOR", "KHNK", "HNK", "None", "42.04N", "075.19W", "690", "US"],
  ["NY HORNELL", "K4G6", "4G6", "None", "42.23N", "077.41W", "372", "US"],
  ["NY HUDSON/COLUMBIA", "K1B1", "1B1", "None", "42.17N", "073.43W", "60", "US"],
  ["NY ISLIP", "KISP", "ISP", "None", "40.48N", "073.06W", "43", "US"],
  ["NY ITHACA/TOMPKINS", "KITH", "ITH", "None", "42.28N", "076.27W", "335", "US"],
  ["NY JAMESTOWN", "KJHW", "JHW", "None", "42.08N", "079.16W", "525", "US"],
  ["NY JOHNSTOWN", "KNY0", "NY0", "None", "43.00N", "074.19W", "269", "US"],
  ["NY MANHATTAN/DWNTWN", "KJRB", "JRB", "None", "40.42N", "074.01W", "7", "US"],
  ["NY MASSENA", "KMSS", "MSS", "None", "44.56N", "074.51W", "66", "US"],
  ["NY MONTAUK", "KMTP", "MTP", "None", "41.04N", "071.55W", "2", "US"],
  ["NY MONTGOMERY", "KMGJ", "MGJ", "None", "41.31N", "074.16W", "108", "US"],
  ["NY MONTICELLO", "KMSV", "MSV", "None", "41.42N", "074.47W", "428", "US"],
  ["NY NEWBURGH/STEWART", "KSWF", "SWF", "None", "41.30N", "074.05W", "150", "US"],
  ["NY NIAGARA FALLS", "KIAG", "IAG", "None", "43.07N", "078.56W", "182", "US"],
  ["NY NORWICH", "KOIC", "OIC", "None", "42.34N", "075.31W", "312", "US"],
  ["NY NYC/JFK ARPT", "KJFK", "JFK", "74486", "40.38N", "073.46W", "9", "US"],
  ["NY NYC/LA GUARDIA", "KLGA", "LGA", "72503", "40.47N", "073.53W", "11", "US"],
  ["NY NYC/CENTRAL PARK", "KNYC", "NYC", "None", "40.47N", "073.58W", "11", "US"],
  ["NY NEW YORK/ARTCC", "KZNY", "ZNY", "None", "40.48N", "073.06W", "48", "US"],
  ["NY OGDENSBURG INTL", "KOGS", "OGS", "None", "44.40N", "075.28W", "91", "US"],
  ["NY OLEAN", "KOLE", "OLE", "None", "42.14N", "078.22W", "651", "US"],
  ["NY PENN YAN", "KPEO", "PEO", "None", "42.39N", "077.03W", "256", "US"],
  ["NY PLATTSBURGH", "KPLB", "PLB", "None", "44.41N", "073.32W", "106", "US"],
  ["NY PLATTSBURGH AFB", "KPBG", "PBG", "None", "44.39N", "073.28W", "72", "US"],
  ["NY POTSDAM", "KPTD", "PTD", "None", "44.41N", "074.57W", "144", "US"],
  ["NY POUGHKEEPSIE", "KPOU", "POU", "None", "41.38N", "073.53W", "46", "US"],
  ["NY ROCHESTER", "KROC", "ROC", "72529", "43.07N", "077.41W", "178", "US"],
  ["NY ROME/GRIFFISS AF", "KRME", "RME", "None", "43.13N", "075.24W", "154", "US"],
  ["NY SARANAC LAKE", "KSLK", "SLK", "None", "44.24N", "074.12W", "498", "US"],
  ["NY SARATOGA SPRINGS", "K5B2", "5B2", "None", "43.03N", "073.52W", "132", "US"],
  ["NY SCHENECTADY AIRP", "KSCH", "SCH", "None", "42.51N", "073.55W", "115", "US"],
  ["NY SHIRLEY", "KHWV", "HWV", "None", "40.49N", "072.52W", "21", "US"],
  ["NY SIDNEY", "KN23", "N23", "None", "42.18N", "075.25W", "313", "US"],
  ["NY SKANEATELES", "K6B9", "6B9", "None", "42.55N", "076.26W", "317", "US"],
  ["NY SYRACUSE", "KSYR", "SYR", "72519", "43.07N", "076.06W", "127", "US"],
  ["NY SYRACUSE", "None", "None", "74379", "43.07N", "076.05W", "122", "US"],
  ["NY UTICA", "KUCA", "UCA", "None", "43.09N", "075.23W", "228", "US"],
  ["NY WATERTOWN", "KART", "ART", "None", "43.59N", "076.02W", "100", "US"],
  ["NY WELLSVILLE", "KELZ", "ELZ", "None", "42.06N", "077.59W", "646", "US"],
  ["NY WESTHAMPTON BEAC", "KFOK", "FOK", "None", "40.51N", "072.37W", "33", "US"],
  ["NY WHITE PLAINS", "KHPN", "HPN", "None", "41.04N", "073.42W", "121", "US"],
  ["NY WILLIAMSON/SODUS", "KSDC", "SDC", "None", "43.14N", "077.07W", "129", "US"],
  ["NY AMBROSE", "KN28", "N28", "74499", "40.27N", "073.11W", "26", "US"],
  ["NY AMBROSE (LGT-SH", "None", "None", "99410", "40.28N", "073.10W", "1", "US"],
  ["NY BOONVILLE", "K1B8", "1B8", "None", "43.27N", "075.21W", "482", "US"],
  ["NY COLDEN", "KCOL", "COL", "None", "42.40N", "078.41W", "312", "US"],
  ["NY COOPERSTOWN", "KCOO", "COO", "None", "42.42N", "074.55W", "378", "US"],
  ["NY ELLENBURG DEPOT", "KELB", "ELB", "None", "44.54N", "073.48W", "262", "US"],
  ["NY GALLOO ISLAND", "None", "None", "99432", "43.52N", "076.34W", "76", "US"],
  ["NY MALONE", "KMAL", "MAL", "None", "44.51N", "074.18W", "268", "US"],
  ["NY ONEONTA", "KOZX", "OZX", "None", "42.23N", "075.09W", "351", "US"],
  ["NY FULTON/OSWEGO CT", "KN00", "N00", "None", "43.21N", "076.23W", "145", "US"],
  ["NY PISECO LAKE", "KPIC", "PIC", "None", "43.27N", "074.32W", "527", "US"],
  ["NY SLIDE MOUNTAIN", "KSLD", "SLD", "None", "41.58N", "074.21W", "610", "US"],
  ["NY STORMVILLE", "KSTM", "STM", "None", "41.32N", "073.44W", "279", "US"],
  ["NY WARSAW", "KWRS", "WRS", "None", "42.41N", "078.12W", "555", "US"],
  ["NY GRIFFISS AFB/88D", "KRMX", "RMX", "None", "43.28N", "075.27W", "154", "US"],
  ["OH AKRON (FULTON)", "KAKR", "AKR", "None", "41.02N", "081.28W", "363", "US"],
  ["OH AKRON", "KCAK", "CAK", "72521", "40.55N", "081.27W", "377", "US"],
  ["OH APPLETON", "KAPE", "APE", "None", "40.09N", "082.35W", "453", "US"],
  ["OH ASHTABULA", "KHZY", "HZY", "None", "41.47N", "080.42W", "276", "US"],
  ["OH ATHENS", "KUNI", "UNI", "None", "39.13N", "082.14W", "193", "US"],
  ["OH BATAVIA", "KI69", "I69", "None", "39.05N", "084.13W", "255", "US"],
  ["OH BELLAIRE VOR", "KAIR", "AIR", "None", "40.01N", "080.49W", "430", "US"],
  ["OH BELLEFONTAINE", "KEDJ", "EDJ", "None", "40.22N", "083.49W", "342", "US"],
  ["OH CAMBRIDGE", "KCDI", "CDI", "None", "39.59N", "081.35W", "244", "US"],
  ["OH CHILLICOTHE", "KRZT", "RZT", "None", "39.26N", "083.01W", "193", "US"],
  ["OH CINCINNAT/LUNKEN", "KLUK", "LUK", "None", "39.06N", "084.25W", "155", "US"],
  ["OH CLEVELAND", "KBKL", "BKL", "None", "41.32N", "081.40W", "184", "US"],
  ["OH CLEVELAND", "KCLE", "CLE", "72524", "41.25N", "081.51W", "233", "US"],
  ["OH CLEVLND/CUYAHOGA", "KCGF", "CGF", "None", "41.34N", "081.28W", "268", "US"],
  ["OH CLEVELAND/ARTCC", "KZOB", "ZOB", "None", "41.18N", "082.12W", "241", "US"],
  ["OH COLUMBUS", "KCMH", "CMH", "72428", "40.00N", "082.53W", "247", "US"],
  ["OH COLUMBUS/ST UNIV", "KOSU", "OSU", "None", "40.05N", "083.05W", "280", "US"],
  ["OH COLUMBUS/BOLTON", "KTZR", "TZR", "None", "39.54N", "083.08W", "276", "US"],
  ["OH DAYTON", "KDAY", "DAY", "72429", "39.54N", "084.13W", "305", "US"],
  ["OH DAYTON", "KMGY", "MGY", "None", "39.36N", "084.14W", "289", "US"],
  ["OH DAYTON-JACKSON", "KI19", "I19", "None", "39.41N", "084.00W", "290", "US"]]

/-- `STATIONS` (database/stations.py 2617-2716). -/
noncomputable def stations26 : List StationRow := rows! [
  ["OH DEFIANCE", "KDFI", "DFI", "None", "41.20N", "084.26W", "219", "US"],
  ["OH DELAWARE", "KDLZ", "DLZ", "None", "40.17N", "083.07W", "289", "US"],
  ["OH FINDLAY", "KFDY", "FDY", "None", "41.01N", "083.40W", "247", "US"],
  ["OH FLAG CITY", "KFBC", "FBC", "None", "41.01N", "083.40W", "247", "US"],
  ["OH HAMILTON", "KHAO", "HAO", "None", "39.22N", "084.31W", "188", "US"],
  ["OH HARRISON", "KI67", "I67", "None", "39.16N", "084.46W", "178", "US"],
  ["OH LANCASTER", "KLHQ", "LHQ", "None", "39.45N", "082.40W", "260", "US"],
  ["OH LEBANON", "KI68", "I68", "None", "39.28N", "084.15W", "274", "US"],
  ["OH LIMA", "KAOH", "AOH", "None", "40.42N", "084.01W", "296", "US"],
  ["OH LONDON", "KUYF", "UYF", "None", "39.56N", "083.28W", "330", "US"],
  ["OH LORAIN/ELYRIA", "KLPR", "LPR", "None", "41.21N", "082.11W", "241", "US"],
  ["OH MANSFIELD", "KMFD", "MFD", "None", "40.49N", "082.31W", "395", "US"],
  ["OH MARION", "KMNN", "MNN", "None", "40.37N", "083.04W", "301", "US"],
  ["OH MARYSVILLE", "KMRT", "MRT", "None", "40.13N", "083.21W", "312", "US"],
  ["OH MIDDLETOWN/HOOK", "KMWO", "MWO", "None", "39.32N", "084.24W", "198", "US"],
  ["OH MT VERNON/KNOX", "K4I3", "4I3", "None", "40.20N", "082.32W", "363", "US"],
  ["OH NEW PHILADELPHIA", "KPHD", "PHD", "None", "40.28N", "081.25W", "272", "US"],
  ["OH NEWARK", "KVTA", "VTA", "None", "40.01N", "082.28W", "268", "US"],
  ["OH OTTAWA", "KOWX", "OWX", "None", "41.02N", "083.59W", "233", "US"],
  ["OH PORT CLINTON", "KPCW", "PCW", "None", "41.31N", "082.52W", "178", "US"],
  ["OH RAVENA/PORTAGE", "KPOV", "POV", "None", "41.13N", "081.15W", "365", "US"],
  ["OH RICKENBACKER ANG", "KLCK", "LCK", "None", "39.49N", "082.55W", "227", "US"],
  ["OH ROSEWOOD VOR", "KROD", "ROD", "None", "40.17N", "084.02W", "360", "US"],
  ["OH SPRINGFIELD MUNI", "KSGH", "SGH", "None", "39.50N", "083.50W", "321", "US"],
  ["OH TOLEDO", "KTDZ", "TDZ", "None", "41.34N", "083.29W", "189", "US"],
  ["OH TOLEDO", "KTOL", "TOL", "72536", "41.35N", "083.48W", "210", "US"],
  ["OH VERSAILLES", "KVES", "VES", "None", "40.12N", "084.32W", "307", "US"],
  ["OH WAPAKONETA", "KAXV", "AXV", "None", "40.30N", "084.18W", "279", "US"],
  ["OH WASHINGTON COURT", "KI23", "I23", "None", "39.34N", "083.25W", "299", "US"],
  ["OH WAUSEON", "KUSE", "USE", "None", "41.37N", "084.08W", "238", "US"],
  ["OH WILLOUGHBY", "KLNN", "LNN", "None", "41.40N", "081.22W", "191", "US"],
  ["OH WILMINGTON", "KILN", "ILN", "72426", "39.26N", "083.48W", "322", "US"],
  ["OH WILMINGTON/RFC", "KTIR", "TIR", "None", "39.25N", "083.49W", "332", "US"],
  ["OH WOOSTER", "KBJJ", "BJJ", "None", "40.52N", "081.53W", "343", "US"],
  ["OH WRIGHT PATERSON", "KFFO", "FFO", "74570", "39.49N", "084.02W", "251", "US"],
  ["OH YOUNGSTOWN", "KYNG", "YNG", "72525", "41.15N", "080.40W", "360", "US"],
  ["OH ZANESVILLE", "KZZV", "ZZV", "None", "39.57N", "081.54W", "268", "US"],
  ["OH ASHTABULA", "K7G2", "7G2", "None", "41.47N", "080.42W", "276", "US"],
  ["OH ASHTABULA", "KSHI", "SHI", "None", "41.47N", "080.42W", "276", "US"],
  ["OH COLUMBUS/BOLTON", "K2I4", "2I4", "None", "39.54N", "083.08W", "290", "US"],
  ["OH LANCASTER", "KI15", "I15", "None", "39.45N", "082.39W", "265", "US"],
  ["OH LORAIN/ELYRIA", "K22G", "22G", "None", "41.21N", "082.11W", "241", "US"],
  ["OH NEWARK", "K2I8", "2I8", "None", "40.01N", "082.28W", "268", "US"],
  ["OH RAVENA/PORTAGE", "K29G", "29G", "None", "41.13N", "081.15W", "365", "US"],
  ["OH SOUTH BASS ISLA", "None", "None", "99434", "41.37N", "082.10W", "177", "US"],
  ["OK ADA", "KADH", "ADH", "None", "34.48N", "096.40W", "308", "US"],
  ["OK ARDMORE", "KADM", "ADM", "None", "34.17N", "097.01W", "232", "US"],
  ["OK ARDMORE/EXEC", "K1F0", "1F0", "None", "34.09N", "097.07W", "257", "US"],
  ["OK ALTUS AFB", "KLTS", "LTS", "72352", "34.40N", "099.16W", "420", "US"],
  ["OK ALTUS/QUARTZ MTN", "KAXS", "AXS", "None", "34.42N", "099.20W", "437", "US"],
  ["OK ALVA", "KAVK", "AVK", "None", "36.46N", "098.40W", "449", "US"],
  ["OK ATOKA", "KAQR", "AQR", "None", "34.24N", "096.09W", "189", "US"],
  ["OK BARTLESVILLE", "KBVO", "BVO", "None", "36.46N", "096.01W", "210", "US"],
  ["OK BLACKWELL", "KBKN", "BKN", "None", "36.45N", "097.21W", "314", "US"],
  ["OK CLAREMORE", "KGCM", "GCM", "None", "36.18N", "095.29W", "221", "US"],
  ["OK CHANDLER", "KCQB", "CQB", "None", "35.43N", "096.49W", "300", "US"],
  ["OK CHICKASHA", "KCHK", "CHK", "None", "35.06N", "097.58W", "351", "US"],
  ["OK CLINTON", "KCSM", "CSM", "None", "35.21N", "099.12W", "588", "US"],
  ["OK CLINTON", "KCLK", "CLK", "None", "35.32N", "098.56W", "492", "US"],
  ["OK CUSHING", "KCUH", "CUH", "None", "35.57N", "096.46W", "279", "US"],
  ["OK DUNCAN", "KDUC", "DUC", "None", "34.28N", "097.58W", "339", "US"],
  ["OK DURANT", "KDUA", "DUA", "None", "33.57N", "096.24W", "213", "US"],
  ["OK ELK CITY", "KELK", "ELK", "None", "35.26N", "099.24W", "614", "US"],
  ["OK EL RENO MUNI", "KRQO", "RQO", "None", "35.28N", "098.00W", "432", "US"],
  ["OK ENID/VANCE AFB", "KEND", "END", "None", "36.19N", "097.55W", "398", "US"],
  ["OK ENID/WOODRING", "KWDG", "WDG", "None", "36.22N", "097.46W", "356", "US"],
  ["OK FORT SILL", "KFSI", "FSI", "72355", "34.39N", "098.24W", "362", "US"],
  ["OK FREDERICK/ALTUS", "KFDR", "FDR", "None", "34.21N", "098.59W", "386", "US"],
  ["OK GAGE", "KGAG", "GAG", "None", "36.18N", "099.46W", "668", "US"],
  ["OK HUGO", "KHHW", "HHW", "None", "34.02N", "095.33W", "144", "US"],
  ["OK MITBEE/GAGE", "KMMB", "MMB", "None", "36.18N", "099.46W", "668", "US"],
  ["OK GROVE", "KGMJ", "GMJ", "None", "36.36N", "094.44W", "254", "US"],
  ["OK GUTHRIE", "KGOK", "GOK", "None", "35.51N", "097.24W", "324", "US"],
  ["OK GUYMON", "KGUY", "GUY", "None", "36.41N", "101.30W", "948", "US"],
  ["OK HASKELL PROFILER", "None", "HKL", "74648", "35.46N", "095.46W", "212", "US"],
  ["OK HOBART", "KHBR", "HBR", "None", "34.59N", "099.03W", "473", "US"],
  ["OK IDABEL", "K4O4", "4O4", "None", "33.55N", "094.52W", "144", "US"],
  ["OK INOLA/TULSA/88D", "KINX", "INX", "None", "36.11N", "095.34W", "204", "US"],
  ["OK LAMONT PROFILER", "None", "LMN", "74647", "36.41N", "097.28W", "306", "US"],
  ["OK LAMONT ARM KLMN", "None", "None", "74646", "36.37N", "097.29W", "318", "US"],
  ["OK LAWTON", "KLAW", "LAW", "None", "34.33N", "098.25W", "337", "US"],
  ["OK LEXINGTON", "KHMY", "HMY", "None", "35.02N", "097.14W", "331", "US"],
  ["OK MORRIS", "None", "None", "74650", "35.41N", "095.52W", "217", "US"],
  ["OK MCALESTER", "KMLC", "MLC", "None", "34.53N", "095.47W", "232", "US"],
  ["OK MUSKOGEE", "KMKO", "MKO", "None", "35.39N", "095.22W", "185", "US"],
  ["OK NORMAN/WESTHEIME", "KOUN", "OUN", "72357", "35.15N", "097.28W", "357", "US"],
  ["OK NORMAN/SPC", "KWNS", "WNS", "None", "35.13N", "097.27W", "357", "US"],
  ["OK OKLAHOMA CITY", "KOKC", "OKC", "72353", "35.23N", "097.36W", "390", "US"],
  ["OK OKLA CITY/WILEY", "KPWA", "PWA", "None", "35.32N", "097.39W", "397", "US"],
  ["OK OKLA CITY/PAGE", "KRCE", "RCE", "None", "35.29N", "097.49W", "413", "US"],
  ["OK OKMULGEE", "KOKM", "OKM", "None", "35.40N", "095.57W", "220", "US"],
  ["OK PAULS VALLEY", "KPVJ", "PVJ", "None", "34.43N", "097.13W", "295", "US"],
  ["OK PONCA CITY", "KPNC", "PNC", "None", "36.44N", "097.06W", "308", "US"],
  ["OK POTEAU (R KERR)", "KRKR", "RKR", "None", "35.01N", "094.37W", "138", "US"],
  ["OK PURCELL PROFILER", "None", "PRC", "74649", "34.58N", "097.30W", "331", "US"],
  ["OK PURCELL", "None", "None", "74651", "34.58N", "097.42W", "343", "US"],
  ["OK SALLISAW", "KJSV", "JSV", "None", "35.26N", "094.48W", "161", "US"],
  ["OK SAND SPRINGS", "KOWP", "OWP", "None", "36.11N", "096.09W", "272", "US"],
  ["OK SEMINOLE", "KSRE", "SRE", "None", "35.16N", "096.41W", "312", "US"],
  ["OK SHAWNEE", "KSNL", "SNL", "None", "35.21N", "096.57W", "327", "US"]]

/-- `STATIONS` (database/stations.py 2717-2816). -/
noncomputable def stations27 : List StationRow := rows! [
  ["OK STIGLER", "KGZL", "GZL", "None", "35.17N", "095.06W", "183", "US"],
  ["OK STILLWATER", "KSWO", "SWO", "None", "36.10N", "097.05W", "290", "US"],
  ["OK TAHLEQUAH", "KTQH", "TQH", "None", "35.56N", "095.00W", "266", "US"],
  ["OK TINKER AFB", "KTIK", "TIK", "72354", "35.25N", "097.22W", "394", "US"],
  ["OK TULSA", "KTUL", "TUL", "72356", "36.12N", "095.53W", "207", "US"],
  ["OK TULSA", "KRVS", "RVS", "None", "36.03N", "095.59W", "200", "US"],
  ["OK TULSA/WFO", "KTSA", "TSA", "None", "36.12N", "095.54W", "205", "US"],
  ["OK TULSA/RFC", "KTUA", "TUA", "None", "36.09N", "095.51W", "205", "US"],
  ["OK TWIN LAKES/88D", "KTLX", "TLX", "None", "35.20N", "097.17W", "370", "US"],
  ["OK VANCE/KEGELMAN", "KVNX", "VNX", "None", "36.44N", "098.08W", "369", "US"],
  ["OK VICI PROFILER", "None", "VCI", "74640", "36.04N", "099.12W", "648", "US"],
  ["OK VICI", "None", "None", "74641", "36.04N", "099.20W", "622", "US"],
  ["OK WATONGA", "KJWG", "JWG", "None", "35.52N", "098.25W", "472", "US"],
  ["OK WEATHERFORD", "KOJA", "OJA", "None", "35.33N", "098.40W", "490", "US"],
  ["OK WOODWARD", "KWWR", "WWR", "None", "36.27N", "099.31W", "667", "US"],
  ["OK EL RENO MUNI", "KF28", "F28", "None", "35.28N", "098.00W", "432", "US"],
  ["OK PAGE", "KPGO", "PGO", "72341", "34.41N", "094.37W", "883", "US"],
  ["OK SEMINOLE", "KH45", "H45", "None", "35.16N", "096.41W", "312", "US"],
  ["OR PORTLAND", "KPDX", "PDX", "72698", "45.36N", "122.37W", "7", "US"],
  ["OR HILLSBORO/PORTLD", "KHIO", "HIO", "None", "45.33N", "122.57W", "68", "US"],
  ["OR ASTORIA", "KAST", "AST", "72791", "46.09N", "123.53W", "3", "US"],
  ["OR AURORA", "KUAO", "UAO", "None", "45.15N", "122.46W", "59", "US"],
  ["OR BAKER", "KBKE", "BKE", "None", "44.51N", "117.49W", "1024", "US"],
  ["OR BEND", "KBDN", "BDN", "None", "44.06N", "121.12W", "1055", "US"],
  ["OR BROOKINGS", "KBOK", "BOK", "72598", "42.04N", "124.17W", "140", "US"],
  ["OR BURNS", "KBNO", "BNO", "72683", "43.36N", "118.57W", "1264", "US"],
  ["OR CAPE BLANCO (CGS", "K92S", "92S", "72599", "42.50N", "124.34W", "57", "US"],
  ["OR CASCADE LOCKS ST", "KCZK", "CZK", "None", "45.40N", "121.52W", "46", "US"],
  ["OR CLATSOP SPIT", "K3CL", "3CL", "None", "46.14N", "124.01W", "9", "US"],
  ["OR CORVALLIS MUNI A", "KCVO", "CVO", "None", "44.30N", "123.16W", "75", "US"],
  ["OR EUGENE", "KEUG", "EUG", "72693", "44.08N", "123.13W", "114", "US"],
  ["OR FLORENCE MUNI", "K6S2", "6S2", "None", "43.59N", "124.07W", "16", "US"],
  ["OR GOLD BEACH", "K4S1", "4S1", "None", "42.25N", "124.25W", "5", "US"],
  ["OR GRANTS PASS", "K3S8", "3S8", "None", "42.31N", "123.23W", "345", "US"],
  ["OR HERMISTON", "KHRI", "HRI", "None", "45.50N", "119.16W", "195", "US"],
  ["OR HOOD RIVER", "K4S2", "4S2", "None", "45.40N", "121.32W", "195", "US"],
  ["OR JACKSON CTY/MFR", "KMAX", "MAX", "None", "42.05N", "122.43W", "2290", "US"],
  ["OR JOHN DAY STATE", "KGCD", "GCD", "None", "44.23N", "118.58W", "1127", "US"],
  ["OR KIMBERLY/VOR", "KIMB", "IMB", "None", "44.39N", "119.43W", "1700", "US"],
  ["OR KLAMATH FALLS", "KLMT", "LMT", "None", "42.09N", "121.43W", "1246", "US"],
  ["OR LA GRANDE", "KLGD", "LGD", "None", "45.16N", "118.00W", "827", "US"],
  ["OR LAKEVIEW", "KLKV", "LKV", "None", "42.10N", "120.24W", "1441", "US"],
  ["OR MADRAS", "KS33", "S33", "None", "44.40N", "121.09W", "743", "US"],
  ["OR MCMINNVILLE", "KMMV", "MMV", "None", "45.12N", "123.08W", "48", "US"],
  ["OR MEACHAM", "KMEH", "MEH", "None", "45.31N", "118.25W", "1136", "US"],
  ["OR MEDFORD", "KMFR", "MFR", "72597", "42.23N", "122.52W", "396", "US"],
  ["OR MEDFORD(VOR)", "KOED", "OED", "None", "42.23N", "122.52W", "396", "US"],
  ["OR NEWPORT", "KJNW", "JNW", "None", "44.34N", "124.04W", "48", "US"],
  ["OR NEWPORT", "KONP", "ONP", "72695", "44.34N", "124.02W", "48", "US"],
  ["OR NORTH BEND", "KOTH", "OTH", "72691", "43.25N", "124.15W", "4", "US"],
  ["OR ONTARIO", "KONO", "ONO", "None", "44.01N", "117.01W", "667", "US"],
  ["OR PENDLETON", "KPDT", "PDT", "72688", "45.42N", "118.50W", "462", "US"],
  ["OR PORTLD/SCAPPOOSE", "KRTX", "RTX", "None", "45.43N", "122.58W", "479", "US"],
  ["OR PORTLAND/WFO", "KPQR", "PQR", "None", "45.34N", "122.32W", "7", "US"],
  ["OR PORTLAND/RFC", "KPTR", "PTR", "None", "45.36N", "122.36W", "24", "US"],
  ["OR PRINEVILLE", "KS39", "S39", "None", "44.17N", "120.54W", "991", "US"],
  ["OR REDMOND", "KRDM", "RDM", "None", "44.15N", "121.09W", "938", "US"],
  ["OR REDMOND(VOR)", "KDSD", "DSD", "None", "44.15N", "121.18W", "938", "US"],
  ["OR ROME", "KP88", "P88", "None", "42.53N", "117.39W", "1162", "US"],
  ["OR ROME", "KREO", "REO", "None", "42.35N", "117.52W", "1235", "US"],
  ["OR ROOSTER ROCK", "KRRK", "RRK", "None", "45.33N", "122.58W", "50", "US"],
  ["OR ROSEBURG", "KRBG", "RBG", "72690", "43.14N", "123.21W", "154", "US"],
  ["OR SALEM", "KSLE", "SLE", "72694", "44.54N", "123.00W", "59", "US"],
  ["OR SCAPPOOSE", "KSPB", "SPB", "None", "45.46N", "122.52W", "14", "US"],
  ["OR SEA LION CAVES", "K2SL", "2SL", "None", "44.07N", "124.08W", "121", "US"],
  ["OR SEXTON SUMMIT", "KSXT", "SXT", "None", "42.36N", "123.22W", "1170", "US"],
  ["OR SISTERS EAGLEAIR", "K6K5", "6K5", "None", "44.18N", "121.32W", "966", "US"],
  ["OR THE DALLES", "KDLS", "DLS", "None", "45.37N", "121.10W", "71", "US"],
  ["OR TILLAMOOK", "KTMK", "TMK", "None", "45.25N", "123.49W", "11", "US"],
  ["OR TROUTDALE", "KTTD", "TTD", "None", "45.33N", "122.25W", "14", "US"],
  ["OR ASTORIA CG", "KNMW", "NMW", "None", "46.09N", "123.53W", "3", "US"],
  ["OR AURORA STATE", "K3S2", "3S2", "None", "45.15N", "122.46W", "60", "US"],
  ["OR BROOKINGS", "K4BK", "4BK", "None", "42.02N", "124.16W", "24", "US"],
  ["OR CAPE ARAGO (LS)", "None", "None", "99424", "43.19N", "124.37W", "18", "US"],
  ["OR HERMISTON", "KS22", "S22", "None", "45.50N", "119.16W", "195", "US"],
  ["OR JOHN DAY STATE", "K5J0", "5J0", "None", "44.23N", "118.58W", "1127", "US"],
  ["OR LAKEVIEW", "K4LW", "4LW", "72589", "42.13N", "120.21W", "1455", "US"],
  ["OR NEWPORT STATE B", "None", "None", "99428", "44.37N", "124.55W", "9", "US"],
  ["OR PACIFIC CITY", "KPFC", "PFC", "None", "45.12N", "123.57W", "5", "US"],
  ["OR SCAPPOOSE", "K1S4", "1S4", "None", "45.46N", "122.52W", "14", "US"],
  ["OR TILLAMOOK", "KS47", "S47", "None", "45.25N", "123.49W", "11", "US"],
  ["PA ALLENTOWN", "KABE", "ABE", "72517", "40.39N", "075.27W", "114", "US"],
  ["PA ALLENTOWN QUEEN", "KXLL", "XLL", "None", "40.34N", "075.29W", "122", "US"],
  ["PA ALTOONA", "KAOO", "AOO", "None", "40.18N", "078.19W", "455", "US"],
  ["PA AVOCA/WILKES B.", "KAVP", "AVP", "72513", "41.20N", "075.43W", "291", "US"],
  ["PA BEAVER FALLS ARP", "KBVI", "BVI", "None", "40.46N", "080.24W", "382", "US"],
  ["PA BEDFORD", "KHMZ", "HMZ", "None", "40.05N", "078.31W", "355", "US"],
  ["PA BRADFORD", "KBFD", "BFD", "None", "41.48N", "078.38W", "647", "US"],
  ["PA BUTLER CO.", "KBTP", "BTP", "None", "40.46N", "079.57W", "380", "US"],
  ["PA CLEARFIELD", "KFIG", "FIG", "None", "41.03N", "078.25W", "462", "US"],
  ["PA COATESVILLE", "KMQS", "MQS", "None", "39.59N", "075.52W", "201", "US"],
  ["PA DOYLESTOWN", "KDYL", "DYL", "None", "40.20N", "075.07W", "117", "US"],
  ["PA DU BOIS", "KDUJ", "DUJ", "None", "41.10N", "078.54W", "554", "US"],
  ["PA EAST TEXAS VOR", "KETX", "ETX", "None", "40.35N", "075.41W", "250", "US"],
  ["PA ELLWOOD CITY VOR", "KEWC", "EWC", "None", "40.50N", "080.13W", "407", "US"],
  ["PA ERIE", "KERI", "ERI", "72526", "42.05N", "080.11W", "222", "US"],
  ["PA FOUNTAIN DALE", "KRYT", "None", "None", "39.44N", "077.26W", "274", "US"],
  ["PA FRANKLIN", "KFKL", "FKL", "None", "41.22N", "079.52W", "469", "US"],
  ["PA GROVE CITY", "K29D", "29D", "None", "41.09N", "080.10W", "418", "US"],
  ["PA HARRISBURG", "KCXY", "CXY", "None", "40.13N", "076.51W", "106", "US"]]

/-- `STATIONS` (database/stations.py 2817-2916). -/
noncomputable def stations28 : List StationRow := rows! [
  ["PA HARRISBURG", "KHAR", "HAR", "72511", "40.18N", "077.04W", "397", "US"],
  ["PA HAZLETON", "KHZL", "HZL", "None", "40.59N", "076.00W", "489", "US"],
  ["PA INDIANA/STEWART", "KIDI", "IDI", "None", "40.37N", "079.05W", "429", "US"],
  ["PA JOHNSTOWN", "KJST", "JST", "None", "40.19N", "078.50W", "694", "US"],
  ["PA LANCASTER", "KLNS", "LNS", "None", "40.07N", "076.18W", "125", "US"],
  ["PA LATROBE/WESTMORL", "KLBE", "LBE", "None", "40.16N", "079.24W", "361", "US"],
  ["PA LEHIGHTON", "K22N", "22N", "None", "40.49N", "075.46W", "163", "US"],
  ["PA LOCK HAVEN", "KLHV", "LHV", "None", "41.08N", "077.25W", "170", "US"],
  ["PA MEADVILLE", "KGKJ", "GKJ", "None", "41.38N", "080.13W", "428", "US"],
  ["PA MIDDLETOWN", "KMDT", "MDT", "None", "40.12N", "076.46W", "95", "US"],
  ["PA MT. POCONO", "KMPO", "MPO", "None", "41.08N", "075.23W", "577", "US"],
  ["PA MUIR AAF/INDIANT", "KMUI", "MUI", "None", "40.25N", "076.34W", "149", "US"],
  ["PA NEW CASTLE MUNI", "KUCP", "UCP", "None", "41.02N", "080.25W", "327", "US"],
  ["PA PERKASIE", "KCKZ", "CKZ", "None", "40.23N", "075.17W", "173", "US"],
  ["PA PHILADELPHIA", "KPHL", "PHL", "72408", "39.52N", "075.14W", "18", "US"],
  ["PA PHILADELPHIA/NE", "KPNE", "PNE", "None", "40.05N", "075.01W", "28", "US"],
  ["PA PHILLY WINGS F", "KLOM", "LOM", "None", "40.08N", "075.16W", "92", "US"],
  ["PA PHILIPSBURG/MID", "KPSB", "PSB", "72512", "40.52N", "078.04W", "594", "US"],
  ["PA PITTSBURGH/ALLEG", "KAGC", "AGC", "None", "40.21N", "079.55W", "389", "US"],
  ["PA PITTSBURGH", "KPIT", "PIT", "72520", "40.30N", "080.16W", "357", "US"],
  ["PA PITT/CORAOPOLIS", "KPBZ", "PBZ", "None", "40.32N", "080.13W", "361", "US"],
  ["PA POTTSTOWN", "KPTW", "PTW", "None", "40.14N", "075.33W", "92", "US"],
  ["PA QUAKERTOWN ARP", "KUKT", "UKT", "None", "40.26N", "075.23W", "160", "US"],
  ["PA READING", "KRDG", "RDG", "None", "40.22N", "075.58W", "109", "US"],
  ["PA RUSH/ST COLLEGE", "KCCX", "CCX", "None", "40.55N", "078.00W", "733", "US"],
  ["PA SELINSGROVE", "KSEG", "SEG", "None", "40.49N", "076.52W", "134", "US"],
  ["PA SOMERSET", "K2G9", "2G9", "None", "40.02N", "079.01W", "694", "US"],
  ["PA SLATE RUN", "KSLT", "SLT", "None", "41.30N", "077.58W", "707", "US"],
  ["PA STATE COLLEGE", "KUNV", "UNV", "None", "40.51N", "077.51W", "378", "US"],
  ["PA STATE COLLEG/WFO", "KCTP", "CTP", "None", "40.51N", "077.51W", "389", "US"],
  ["PA STATE COLLEG/RFC", "KRHA", "RHA", "None", "40.51N", "077.51W", "389", "US"],
  ["PA TOWANDA", "KN27", "N27", "None", "41.44N", "076.27W", "223", "US"],
  ["PA WASHINGTON", "KAFJ", "AFJ", "None", "40.07N", "080.16W", "361", "US"],
  ["PA WELLSBORO", "KN38", "N38", "None", "41.44N", "077.24W", "577", "US"],
  ["PA WEST CHESTER", "KOQN", "OQN", "None", "39.59N", "075.35W", "142", "US"],
  ["PA WILLIAMSPORT", "KIPT", "IPT", "72514", "41.15N", "076.55W", "164", "US"],
  ["PA YORK", "KTHV", "THV", "None", "39.55N", "076.53W", "144", "US"],
  ["PA ALLENTOWN QUEEN", "KJVU", "JVU", "None", "40.34N", "075.29W", "122", "US"],
  ["PA CLEARFIELD", "KN97", "N97", "None", "41.03N", "078.25W", "462", "US"],
  ["PA COATESVILLE", "K40N", "40N", "None", "39.59N", "075.52W", "201", "US"],
  ["PA HAWLEY", "KHAW", "HAW", "None", "41.29N", "075.10W", "268", "US"],
  ["PA MEADVILLE", "K2G6", "2G6", "None", "41.37N", "080.12W", "428", "US"],
  ["PA TOBYHANNA", "K7TB", "7TB", "None", "41.11N", "075.25W", "585", "US"],
  ["PA WILLOW GROVE NAS", "KNXX", "NXX", "None", "40.12N", "075.09W", "110", "US"],
  ["RI BLOCK ISLAND", "KBID", "BID", "None", "41.10N", "071.35W", "33", "US"],
  ["RI N. KINGSTON/QUON", "KOQU", "OQU", "None", "41.36N", "071.25W", "6", "US"],
  ["RI NEWPORT", "KUUU", "UUU", "None", "41.32N", "071.17W", "51", "US"],
  ["RI PAWTUCKET", "KSFZ", "SFZ", "None", "41.55N", "071.30W", "134", "US"],
  ["RI PROVIDENCE/GREEN", "KPVD", "PVD", "72507", "41.43N", "071.26W", "16", "US"],
  ["RI WESTERLY", "KWST", "WST", "None", "41.21N", "071.48W", "21", "US"],
  ["RI NEWPORT", "K2B4", "2B4", "None", "41.32N", "071.17W", "52", "US"],
  ["RI WOONSOCKET", "K1B6", "1B6", "None", "41.55N", "071.31W", "35", "US"],
  ["SC AIKEN", "KAIK", "AIK", "None", "33.39N", "081.41W", "161", "US"],
  ["SC ALLENDALE", "KAQX", "AQX", "None", "33.00N", "081.16W", "50", "US"],
  ["SC ANDERSON", "KAND", "AND", "None", "34.30N", "082.43W", "239", "US"],
  ["SC BARNWELL", "KBNL", "BNL", "None", "33.15N", "081.23W", "75", "US"],
  ["SC BEAUFORT MCAS", "KNBC", "NBC", "None", "32.28N", "080.43W", "12", "US"],
  ["SC BEAUFORT CNTY", "KARW", "ARW", "None", "32.25N", "080.38W", "4", "US"],
  ["SC BERKELEY MONCKS", "KMKS", "MKS", "None", "33.11N", "080.02W", "23", "US"],
  ["SC CAMDEN WOODWARD", "KCDN", "CDN", "None", "34.17N", "080.34W", "92", "US"],
  ["SC CHARLESTON", "KCHS", "CHS", "72208", "32.54N", "080.02W", "13", "US"],
  ["SC CHARLESTON/GRAYS", "KCLX", "CLX", "None", "32.39N", "081.03W", "30", "US"],
  ["SC CHARLESTON/EXEC", "KJZI", "JZI", "None", "32.42N", "080.00W", "6", "US"],
  ["SC CHERAW", "KCQW", "CQW", "None", "34.43N", "079.57W", "73", "US"],
  ["SC CHESTER CATAWBA", "KDCM", "DCM", "None", "34.47N", "081.12W", "200", "US"],
  ["SC CLEMSON", "KCEU", "CEU", "None", "34.40N", "082.53W", "268", "US"],
  ["SC COLLIERS VOR", "KIRQ", "IRQ", "None", "33.43N", "082.10W", "147", "US"],
  ["SC COLUMBIA", "KCAE", "CAE", "72310", "33.56N", "081.07W", "70", "US"],
  ["SC COLUMBIA-OWENS", "KCUB", "CUB", "None", "33.58N", "081.00W", "56", "US"],
  ["SC CONWAY-HORRY CTY", "KHYW", "HYW", "None", "33.50N", "079.07W", "11", "US"],
  ["SC DARLINGTON CNTY", "KUDG", "UDG", "None", "34.27N", "079.53W", "59", "US"],
  ["SC FLORENCE", "KFLO", "FLO", "None", "34.11N", "079.44W", "44", "US"],
  ["SC GEORGETOWN", "KGGE", "GGE", "None", "33.19N", "079.19W", "12", "US"],
  ["SC GREENWOOD", "KGRD", "GRD", "None", "34.15N", "082.09W", "185", "US"],
  ["SC GREER/SPARTANSBG", "KGSP", "GSP", "72312", "34.54N", "082.13W", "287", "US"],
  ["SC GREENVILLE", "KGMU", "GMU", "None", "34.51N", "082.21W", "315", "US"],
  ["SC GREENVILLE", "KGYH", "GYH", "None", "34.45N", "082.23W", "292", "US"],
  ["SC HARTSVILLE", "KHVS", "HVS", "None", "34.24N", "080.07W", "111", "US"],
  ["SC HILTON HEAD", "KHXD", "HXD", "None", "32.13N", "080.42W", "6", "US"],
  ["SC KINGSTREE", "KCKI", "CKI", "None", "33.43N", "079.51W", "21", "US"],
  ["SC LANCASTER", "KLKR", "LKR", "None", "34.43N", "080.51W", "149", "US"],
  ["SC LAURENS", "KLUX", "LUX", "None", "34.30N", "081.57W", "213", "US"],
  ["SC MANNING", "KMNI", "MNI", "None", "33.35N", "080.13W", "32", "US"],
  ["SC MARION", "KMAO", "MAO", "None", "34.11N", "079.20W", "28", "US"],
  ["SC MARLBORO CNTY", "KBBP", "BBP", "None", "34.37N", "079.44W", "45", "US"],
  ["SC MCENTIRE ANG BAS", "KMMT", "MMT", "None", "33.55N", "080.47W", "77", "US"],
  ["SC MOUNT PLEASANT", "KLRO", "LRO", "None", "32.54N", "079.47W", "4", "US"],
  ["SC MYRTLE BEACH", "KMYR", "MYR", "74791", "33.40N", "078.55W", "8", "US"],
  ["SC NORTH MYRTLE BEA", "KCRE", "CRE", "None", "33.49N", "078.43W", "10", "US"],
  ["SC NEWBERRY", "KEOE", "EOE", "None", "34.19N", "081.38W", "174", "US"],
  ["SC ORANGEBURG", "KOGB", "OGB", "None", "33.28N", "080.51W", "59", "US"],
  ["SC PICKENS", "KLQK", "LQK", "None", "34.49N", "082.42W", "309", "US"],
  ["SC ROCK HILL", "KUZA", "UZA", "None", "34.59N", "081.03W", "202", "US"],
  ["SC SHAW AFB/SUMTER", "KSSC", "SSC", "74790", "33.58N", "080.28W", "74", "US"],
  ["SC SPARTANBURG", "KSPA", "SPA", "None", "34.55N", "081.56W", "303", "US"],
  ["SC SUMMERVILLE", "KDYB", "DYB", "None", "33.04N", "080.17W", "18", "US"],
  ["SC SUMTER", "KSMS", "SMS", "None", "34.00N", "080.22W", "56", "US"],
  ["SC WALTERBORO", "KRBW", "RBW", "None", "32.55N", "080.38W", "31", "US"],
  ["SC WINNSBORO", "KFDW", "FDW", "None", "34.19N", "081.07W", "176", "US"],
  ["SC CHARLESTON AFB", "KIGC", "IGC", "None", "32.54N", "080.02W", "14", "US"]]

/-- `STATIONS` (database/stations.py 2917-3016). -/
noncomputable def stations29 : List StationRow := rows! [
  ["SC FOLLY ISLAND", "None", "None", "99423", "32.40N", "079.07W", "3", "US"],
  ["SC GRNVL/DNLDSN", "KXAA", "XAA", "None", "34.45N", "082.23W", "320", "US"],
  ["SC HILTON HEAD", "K49J", "49J", "None", "32.13N", "080.42W", "6", "US"],
  ["SC ROCK HILL", "K29J", "29J", "None", "34.59N", "081.03W", "202", "US"],
  ["SC SUMTER/POINSETT", "K2PJ", "2PJ", "74792", "33.51N", "080.29W", "68", "US"],
  ["SD ABERDEEN", "KABR", "ABR", "72659", "45.27N", "098.25W", "397", "US"],
  ["SD BELLE FOURCHE", "KEFC", "EFC", "None", "44.43N", "103.52W", "982", "US"],
  ["SD BISON", "K6V5", "6V5", "None", "45.31N", "102.28W", "851", "US"],
  ["SD BRITTON", "KBTN", "BTN", "None", "45.49N", "097.45W", "402", "US"],
  ["SD BROOKINGS", "KBKX", "BKX", "None", "44.17N", "096.49W", "502", "US"],
  ["SD BUFFALO", "K2WX", "2WX", "None", "45.36N", "103.33W", "915", "US"],
  ["SD CHAMBERLAIN", "K9V9", "9V9", "72653", "43.46N", "099.19W", "519", "US"],
  ["SD CLARK", "K8D7", "8D7", "None", "44.54N", "097.43W", "547", "US"],
  ["SD CUSTER", "KCUT", "CUT", "None", "43.44N", "103.37W", "1725", "US"],
  ["SD DESMET", "K6E5", "6E5", "None", "44.26N", "097.33W", "527", "US"],
  ["SD DUPREE", "KDPR", "DPR", "None", "45.04N", "101.42W", "771", "US"],
  ["SD EAGLE BUTTE", "K84D", "84D", "None", "44.59N", "101.15W", "746", "US"],
  ["SD ELLSWORTH AFB", "KRCA", "RCA", "None", "44.08N", "103.05W", "999", "US"],
  ["SD FAITH", "KD07", "D07", "None", "45.02N", "102.01W", "784", "US"],
  ["SD FAULKTON", "K3FU", "3FU", "None", "45.02N", "099.07W", "478", "US"],
  ["SD GETTYSBURG", "K0D8", "0D8", "None", "44.59N", "099.57W", "629", "US"],
  ["SD GREGORY", "K9D1", "9D1", "None", "43.13N", "099.24W", "663", "US"],
  ["SD HOT SPRINGS", "KHSR", "HSR", "None", "43.22N", "103.23W", "960", "US"],
  ["SD HURON", "KHON", "HON", "72654", "44.23N", "098.14W", "390", "US"],
  ["SD LEMMON", "KY22", "Y22", "72669", "45.55N", "102.10W", "781", "US"],
  ["SD MADISON", "KMDS", "MDS", "None", "44.01N", "097.05W", "524", "US"],
  ["SD MARTIN", "K9V6", "9V6", "None", "43.10N", "101.43W", "1004", "US"],
  ["SD MILLBANK", "K1D1", "1D1", "None", "45.14N", "096.34W", "341", "US"],
  ["SD MILLER", "KMKA", "MKA", "None", "44.32N", "098.57W", "479", "US"],
  ["SD MITCHELL", "KMHE", "MHE", "None", "43.46N", "098.01W", "397", "US"],
  ["SD MOBRIDGE", "KMBG", "MBG", "72668", "45.33N", "100.25W", "510", "US"],
  ["SD ONIDA", "K98D", "98D", "None", "44.42N", "100.06W", "571", "US"],
  ["SD PARKSTON", "K8V3", "8V3", "None", "43.23N", "097.59W", "432", "US"],
  ["SD PHILIP", "KPHP", "PHP", "None", "44.03N", "101.36W", "672", "US"],
  ["SD PIERRE", "KPIR", "PIR", "None", "44.23N", "100.17W", "526", "US"],
  ["SD PINE RIDGE", "KIEN", "IEN", "None", "43.02N", "102.31W", "998", "US"],
  ["SD PLATTE", "K1D3", "1D3", "None", "43.24N", "098.50W", "493", "US"],
  ["SD RAPID CITY/WFO", "KUNR", "UNR", "72662", "44.04N", "103.12W", "1027", "US"],
  ["SD RAPID CITY", "KRAP", "RAP", "None", "44.03N", "103.03W", "965", "US"],
  ["SD RAPID/N UNDERWOD", "KUDX", "UDX", "None", "44.08N", "102.50W", "919", "US"],
  ["SD SIOUX FALLS", "KFSD", "FSD", "72651", "43.35N", "096.45W", "436", "US"],
  ["SD SISSETON", "K8D3", "8D3", "None", "45.40N", "096.59W", "354", "US"],
  ["SD SPEARFISH/CLYDE", "KSPF", "SPF", "None", "44.28N", "103.46W", "1188", "US"],
  ["SD STURGIS", "K49B", "49B", "None", "44.25N", "103.23W", "989", "US"],
  ["SD TEA", "KY14", "Y14", "None", "43.27N", "096.48W", "462", "US"],
  ["SD VERMILLION", "KVMR", "VMR", "None", "42.46N", "096.56W", "349", "US"],
  ["SD WAGNER", "KAGZ", "AGZ", "None", "43.04N", "098.18W", "451", "US"],
  ["SD WALL", "K6V4", "6V4", "None", "44.00N", "102.15W", "857", "US"],
  ["SD WATERTOWN", "KATY", "ATY", "None", "44.54N", "097.09W", "532", "US"],
  ["SD WEBSTER", "K1D7", "1D7", "None", "45.18N", "097.31W", "566", "US"],
  ["SD WESSINGTON SPRIN", "K4X4", "4X4", "None", "44.04N", "098.32W", "471", "US"],
  ["SD WINNER", "KICR", "ICR", "None", "43.23N", "099.51W", "621", "US"],
  ["SD WINNER", "KSFD", "SFD", "None", "43.23N", "099.51W", "621", "US"],
  ["SD YANKTON", "KYKN", "YKN", "None", "42.55N", "097.22W", "398", "US"],
  ["SD BELLE FOURCHE", "KBEL", "BEL", "None", "44.48N", "104.03W", "971", "US"],
  ["SD JCT SD44 US385", "KPAC", "PAC", "None", "44.06N", "103.31W", "1494", "US"],
  ["SD ELLSWORTH I90", "KEL0", "EL0", "None", "44.07N", "103.05W", "939", "US"],
  ["SD WASTA I90", "KWTA", "None", "None", "44.05N", "102.29W", "810", "US"],
  ["SD SHERIDAN LAKE RD", "KSL0", "SL0", "None", "44.02N", "103.26W", "1478", "US"],
  ["SD EDGEMONT US18", "KED0", "ED0", "None", "43.17N", "103.53W", "1136", "US"],
  ["SD SD-WY BORDR US85", "KNE0", "NE0", "None", "44.11N", "104.03W", "1940", "US"],
  ["SD GLAD VLY SD20", "KGLV", "None", "None", "45.24N", "101.47W", "753", "US"],
  ["SD BATESLAND US18", "KBAT", "BAT", "None", "43.08N", "102.06W", "1042", "US"],
  ["SD LEMMON US12", "KLEM", "LEM", "None", "45.56N", "102.11W", "783", "US"],
  ["SD ANDOVER", "KADR", "ADR", "None", "45.26N", "097.56W", "453", "US"],
  ["SD BELVIDERE", "KBVD", "BVD", "None", "43.54N", "101.08W", "728", "US"],
  ["SD BRANDT", "KBRA", "BRA", "None", "44.41N", "096.51W", "564", "US"],
  ["SD CACTUS FLATS", "KCAC", "CAC", "None", "43.50N", "101.46W", "751", "US"],
  ["SD KADOKA", "KKAD", "KAD", "None", "43.52N", "101.50W", "765", "US"],
  ["SD FREDERICK", "KFED", "FED", "None", "45.56N", "098.34W", "427", "US"],
  ["SD HARROLD", "KHRD", "HRD", "None", "44.32N", "099.42W", "547", "US"],
  ["SD HERRIED", "KHER", "HER", "None", "45.51N", "100.06W", "513", "US"],
  ["SD RELIANCE", "KREL", "REL", "None", "43.52N", "099.34W", "542", "US"],
  ["SD SUMMIT", "KSUM", "SUM", "None", "45.20N", "097.05W", "607", "US"],
  ["SD TOLSTOY", "KTLS", "TLS", "None", "45.13N", "099.40W", "596", "US"],
  ["SD VICTOR", "KVIC", "VIC", "None", "45.54N", "096.52W", "329", "US"],
  ["SD VIVIAN", "KVIV", "VIV", "None", "44.14N", "100.22W", "588", "US"],
  ["SD CUSTER", "K0V1", "0V1", "None", "43.44N", "103.37W", "1725", "US"],
  ["SD MOBRIDGE", "KY26", "Y26", "None", "45.32N", "100.26W", "508", "US"],
  ["SD PHILIP", "KP05", "P05", "None", "44.04N", "101.39W", "683", "US"],
  ["SD PICKSTOWN", "None", "PKW", "72652", "43.04N", "098.31W", "453", "US"],
  ["SD REDIG", "KREJ", "REJ", "72661", "45.16N", "103.32W", "925", "US"],
  ["SD ABERDEEN", "QABS", "None", "None", "45.29N", "098.28W", "395", "US"],
  ["SD ALCESTER", "QALS", "None", "None", "43.01N", "096.38W", "342", "US"],
  ["SD BALTIC", "QBAS", "None", "None", "43.46N", "096.44W", "342", "US"],
  ["SD BRANDON", "QBRS", "None", "None", "43.36N", "096.35W", "342", "US"],
  ["SD FT THOMPSON", "QCES", "None", "None", "44.04N", "099.26W", "440", "US"],
  ["SD CLARK", "QCLS", "None", "None", "44.53N", "097.44W", "342", "US"],
  ["SD REDFIELD", "QDPS", "None", "None", "44.53N", "098.31W", "397", "US"],
  ["SD LEAD", "QDSS", "None", "None", "44.21N", "103.47W", "1560", "US"],
  ["SD ELKTON", "QEKS", "None", "None", "44.14N", "096.29W", "342", "US"],
  ["SD PARKSTON", "QESS", "None", "None", "43.24N", "097.59W", "426", "US"],
  ["SD GETTYSBURG", "QETS", "None", "None", "45.01N", "099.58W", "628", "US"],
  ["SD GARRETSON", "QGAS", "None", "None", "43.43N", "096.30W", "342", "US"],
  ["SD CHAMBERLAIN", "QHAS", "None", "None", "43.48N", "099.20W", "447", "US"],
  ["SD BRITTON", "QHHS", "None", "None", "45.47N", "097.45W", "414", "US"],
  ["SD HOWARD", "QHOS", "None", "None", "44.01N", "097.32W", "342", "US"],
  ["SD WINNER", "QHSS", "None", "None", "43.23N", "099.52W", "622", "US"],
  ["SD HURON", "QHUS", "None", "None", "44.21N", "098.14W", "388", "US"],
  ["SD KADOKA", "QKAS", "None", "None", "43.50N", "101.31W", "749", "US"]]

end Verif
