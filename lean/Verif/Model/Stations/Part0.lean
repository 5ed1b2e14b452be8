import Verif.Model.Stations.Rows

/-
Rows of `STATIONS` (database/stations.py). Generated by tools/stations2lean.py.
-/

namespace Verif

/-- `STATIONS` (database/stations.py 17-116). -/
noncomputable def stations00 : List StationRow := rows! [
  ["AK ADAK NAS", "PADK", "ADK", "70454", "51.53N", "176.39W", "4", "US"],
  ["AK AKHIOK", "PAKH", "AKK", "None", "56.56N", "154.11W", "14", "US"],
  ["AK AKUTAN", "PAUT", "None", "None", "54.09N", "165.36W", "25", "US"],
  ["AK AMBLER", "PAFM", "AFM", "None", "67.06N", "157.51W", "88", "US"],
  ["AK ANAKTUVUK PASS", "PAKP", "AKP", "None", "68.08N", "151.44W", "642", "US"],
  ["AK ANCHORAGE INTL", "PANC", "ANC", "70273", "61.10N", "150.01W", "38", "US"],
  ["AK ANCHORAGE/WFO", "PAFC", "AFC", "None", "61.10N", "150.02W", "48", "US"],
  ["AK ANCHORAG/NIKISKI", "PAHG", "AHG", "None", "60.44N", "151.21W", "74", "US"],
  ["AK ANCHORAGE/LAKE H", "PALH", "LHD", "None", "61.11N", "149.58W", "22", "US"],
  ["AK ANCHORAGE/ARTCC", "PZAN", "ZAN", "None", "61.10N", "149.59W", "22", "US"],
  ["AK ANCHORAGE/MERRIL", "PAMR", "MRI", "None", "61.13N", "149.51W", "41", "US"],
  ["AK ANGOON SEAPLANE", "PAGN", "None", "None", "57.30N", "134.35W", "2", "US"],
  ["AK ANIAK", "PANI", "ANI", "70232", "61.35N", "159.32W", "26", "US"],
  ["AK ANNETTE ISLAND", "PANT", "ANN", "70398", "55.02N", "131.34W", "36", "US"],
  ["AK ANVIK", "PANV", "ANV", "None", "62.39N", "160.11W", "99", "US"],
  ["AK ARCTIC VILLAGE", "PARC", "ARC", "None", "68.07N", "145.35W", "636", "US"],
  ["AK ATQASUK BURNELL", "PATQ", "ATK", "None", "70.28N", "157.26W", "29", "US"],
  ["AK ATKA", "PAAK", "AKA", "None", "52.13N", "174.12W", "17", "US"],
  ["AK BARROW", "PABR", "BRW", "70026", "71.17N", "156.48W", "7", "US"],
  ["AK BARROW ARM-NSA", "None", "None", "70027", "71.19N", "156.37W", "7", "US"],
  ["AK BARTER ISLAND", "PABA", "BTI", "70086", "70.08N", "143.35W", "2", "US"],
  ["AK BETHEL", "PABE", "BET", "70219", "60.47N", "161.51W", "41", "US"],
  ["AK BETHEL/88D", "PABC", "ABC", "None", "60.48N", "161.53W", "49", "US"],
  ["AK BETTLES", "PABT", "BTT", "70174", "66.55N", "151.31W", "195", "US"],
  ["AK BIG RIVER LAKES", "PALV", "LVR", "None", "60.49N", "152.18W", "12", "US"],
  ["AK BIRCHWOOD", "PABV", "BCV", "None", "61.25N", "149.31W", "29", "US"],
  ["AK BREVIG_MISSION", "PFKT", "None", "None", "65.20N", "166.28W", "9", "US"],
  ["AK BUCKLAND", "PABL", "BVK", "None", "65.59N", "161.09W", "7", "US"],
  ["AK CANTWELL", "PATW", "TTW", "None", "63.23N", "148.57W", "668", "US"],
  ["AK CAPE LISBURNE", "PALU", "LUR", "70104", "68.53N", "166.08W", "3", "US"],
  ["AK CAPE NEWENHAM", "PAEH", "EHM", "70305", "58.39N", "162.04W", "161", "US"],
  ["AK CAPE ROMANZOF", "PACZ", "CZF", "70212", "61.47N", "166.02W", "146", "US"],
  ["AK CENTRAL", "PARL", "None", "None", "65.34N", "144.47W", "284", "US"],
  ["AK CENTRAL", "PACE", "None", "None", "65.34N", "144.47W", "286", "US"],
  ["AK CENTRAL AK PROF", "None", "CEN", "70197", "65.30N", "144.41W", "259", "US"],
  ["AK CHANDALAR LAKE", "PALR", "WCR", "None", "67.30N", "148.29W", "585", "US"],
  ["AK CHEVAK", "PAVA", "None", "None", "61.32N", "165.36W", "23", "US"],
  ["AK CHIGNIK BAY", "PAJC", "AJC", "None", "56.19N", "158.22W", "15", "US"],
  ["AK CIRCLE/PAFC RFC", "PACR", "CRC", "None", "65.50N", "144.04W", "182", "US"],
  ["AK CLARKS POINT", "PFCL", "CLP", "None", "58.50N", "158.32W", "24", "US"],
  ["AK COLD BAY", "PACD", "CDB", "70316", "55.12N", "162.43W", "30", "US"],
  ["AK CORDOVA", "PACV", "CDV", "70296", "60.30N", "145.30W", "12", "US"],
  ["AK DEADHORSE", "PASC", "SCC", "None", "70.12N", "148.28W", "15", "US"],
  ["AK DEERING", "PADE", "DEE", "None", "66.04N", "162.46W", "5", "US"],
  ["AK DELTA JUNCTION", "PABI", "BIG", "70267", "64.00N", "145.44W", "386", "US"],
  ["AK DILLINGHAM", "PADL", "DLG", "70321", "59.03N", "158.31W", "26", "US"],
  ["AK EAGLE", "PAEG", "EAA", "None", "64.47N", "141.09W", "268", "US"],
  ["AK EARECKSON/SHEMYA", "PASY", "SYA", "70414", "52.43N", "174.07E", "31", "US"],
  ["AK EGEGIK", "PAII", "EII", "None", "58.11N", "157.23W", "30", "US"],
  ["AK EIELSON AFB", "PAEI", "EIL", "70265", "64.40N", "147.06W", "167", "US"],
  ["AK ELFIN COVE", "PAEL", "ELV", "None", "58.12N", "136.21W", "3", "US"],
  ["AK ELIM APRT", "PFEL", "None", "None", "64.37N", "162.16W", "49", "US"],
  ["AK ELMENDORF AFB", "PAED", "EDF", "70272", "61.15N", "149.48W", "59", "US"],
  ["AK EMMONAK", "PAEM", "ENM", "None", "62.46N", "164.31W", "3", "US"],
  ["AK EUREKA", "PAZK", "AZK", "None", "61.56N", "147.10W", "1003", "US"],
  ["AK FAIRBANKS", "PAFA", "FAI", "70261", "64.48N", "147.53W", "132", "US"],
  ["AK FAIRBANKS/WFO", "PAFG", "AFG", "None", "64.48N", "147.53W", "140", "US"],
  ["AK FALSE PASS", "PAKF", "None", "None", "54.51N", "163.25W", "6", "US"],
  ["AK FRBNKS/PEDRO DOM", "PAPD", "APD", "None", "65.02N", "147.30W", "790", "US"],
  ["AK FAREWELL LAKE", "PAFK", "FKK", "70248", "62.32N", "153.36W", "321", "US"],
  ["AK FORT RICHARDSON", "PAFR", "FRN", "70270", "61.16N", "149.39W", "115", "US"],
  ["AK FORT WAINWRIGHT", "PAFB", "FBK", "None", "64.50N", "147.37W", "137", "US"],
  ["AK FORT YUKON", "PAFY", "None", "70194", "66.34N", "145.16W", "131", "US"],
  ["AK FORT YUKON", "PFYU", "FYU", "None", "66.34N", "145.16W", "131", "US"],
  ["AK FUNTER BAY", "PAFN", "FNR", "None", "58.15N", "134.54W", "9", "US"],
  ["AK GALBRAITH LAKE", "PAGB", "GBH", "None", "68.29N", "149.29W", "811", "US"],
  ["AK GALENA", "PAGA", "GAL", "70222", "64.44N", "156.56W", "46", "US"],
  ["AK GAMBELL", "PAGM", "GAM", "70204", "63.46N", "171.44W", "8", "US"],
  ["AK GLENNALLEN PROF", "None", "GNA", "70268", "62.07N", "145.58W", "564", "US"],
  ["AK GOLOVIN", "PAGL", "N93", "None", "64.33N", "163.02W", "8", "US"],
  ["AK GULKANA", "PAGK", "GKN", "70271", "62.09N", "145.27W", "481", "US"],
  ["AK GUSTAVUS", "PAGS", "GST", "70367", "58.25N", "135.44W", "9", "US"],
  ["AK HAINES", "PAHN", "HNS", "None", "59.15N", "135.31W", "5", "US"],
  ["AK HAYES RIVER", "PAHZ", "HZZ", "None", "61.59N", "152.05W", "305", "US"],
  ["AK HEALY", "PAHV", "HRR", "None", "63.50N", "149.00W", "396", "US"],
  ["AK HOLY CROSS", "PAHC", "HCA", "None", "62.11N", "159.47W", "21", "US"],
  ["AK HOMER", "PAHO", "HOM", "70341", "59.38N", "151.30W", "28", "US"],
  ["AK HOONAH", "PAOH", "HNH", "None", "58.06N", "135.27W", "9", "US"],
  ["AK HOOPER BAY", "PAHP", "HPB", "None", "61.32N", "166.09W", "5", "US"],
  ["AK HUSLIA", "PAHS", "HSL", "None", "65.42N", "156.23W", "55", "US"],
  ["AK HUSLIA", "PAHL", "None", "None", "65.42N", "156.21W", "65", "US"],
  ["AK HYDABURG", "PAHY", "HYG", "None", "55.12N", "132.50W", "1", "US"],
  ["AK IGIUGIG", "PAIG", "None", "None", "59.19N", "155.54W", "28", "US"],
  ["AK ILIAMNA", "PAIL", "ILI", "70340", "59.45N", "154.55W", "49", "US"],
  ["AK INDIAN MOUNTAIN", "PAIM", "UTO", "70173", "66.00N", "153.42W", "389", "US"],
  ["AK JUNEAU", "PAJN", "JNU", "70381", "58.22N", "134.35W", "5", "US"],
  ["AK JUNEAU/WFO", "PAJK", "AJK", "None", "58.22N", "134.34W", "7", "US"],
  ["AK KAKE", "PAFE", "AFE", "None", "56.58N", "133.55W", "9", "US"],
  ["AK KALSKAG", "PALG", "KLG", "None", "61.32N", "160.20W", "17", "US"],
  ["AK KALTAG", "PAKV", "KAL", "None", "64.20N", "158.45W", "61", "US"],
  ["AK KENAI", "PAEN", "ENA", "70259", "60.34N", "151.15W", "27", "US"],
  ["AK KETCHIKAN", "PAKT", "KTN", "70395", "55.21N", "131.42W", "28", "US"],
  ["AK KIANA", "PAIK", "None", "None", "66.59N", "160.26W", "51", "US"],
  ["AK KING COVE", "PAVC", "None", "None", "55.07N", "162.16W", "47", "US"],
  ["AK KING SALMON", "PAKN", "AKN", "70326", "58.41N", "156.39W", "17", "US"],
  ["AK KING SALMON/88D", "PAKC", "AKC", "None", "58.41N", "156.38W", "19", "US"],
  ["AK KING SALMON AFS", "KQRC", "QRC", "None", "58.41N", "156.38W", "15", "US"],
  ["AK KIPNUK", "PAKI", "IIK", "None", "59.56N", "164.02W", "4", "US"],
  ["AK KIVALINA", "PAVL", "KVL", "None", "67.44N", "164.33W", "3", "US"],
  ["AK KLAWOCK", "PAKW", "AKW", "None", "55.35N", "133.04W", "15", "US"]]

/-- `STATIONS` (database/stations.py 117-216). -/
noncomputable def stations01 : List StationRow := rows! [
  ["AK KODIAK", "PADQ", "ADQ", "70350", "57.45N", "152.30W", "34", "US"],
  ["AK KODIAK", "PAKD", "KDK", "None", "57.48N", "152.22W", "42", "US"],
  ["AK KOLIGANEK", "PAJZ", "JZZ", "None", "59.44N", "157.16W", "82", "US"],
  ["AK KOTZEBUE", "PAOT", "OTZ", "70133", "66.52N", "162.35W", "3", "US"],
  ["AK KOYUK", "PAKK", "KKA", "None", "64.56N", "161.09W", "47", "US"],
  ["AK KUPARUK", "PAKU", "UBW", "None", "70.19N", "149.35W", "2", "US"],
  ["AK KWETHLUK", "PFKW", "None", "None", "60.48N", "161.26W", "8", "US"],
  ["AK MANLEY HOT SPRIN", "PAML", "MLY", "None", "65.00N", "150.39W", "81", "US"],
  ["AK MANOKOTAK", "PAMB", "MBA", "None", "58.59N", "159.03W", "16", "US"],
  ["AK MARSHALL", "PADM", "None", "None", "61.52N", "162.02W", "31", "US"],
  ["AK MCCARTHY", "PAMX", "15Z", "None", "61.26N", "142.55W", "455", "US"],
  ["AK MCGRATH", "PAMC", "MCG", "70231", "62.58N", "155.37W", "103", "US"],
  ["AK MCKINLEY PARK", "PAIN", "INR", "None", "63.44N", "148.55W", "524", "US"],
  ["AK MEKORYUK", "PAMY", "MYU", "None", "60.22N", "166.16W", "13", "US"],
  ["AK METLAKATLA", "PAMM", "MTM", "None", "55.08N", "131.35W", "1", "US"],
  ["AK MIDDLETON ISLAND", "PAMD", "MDO", "70343", "59.26N", "146.18W", "14", "US"],
  ["AK MIDDLETON IS 88D", "PAIH", "AIH", "None", "59.28N", "146.18W", "20", "US"],
  ["AK MINCHUMINA", "PAMH", "MHM", "70246", "63.54N", "152.19W", "214", "US"],
  ["AK MOUNTAIN VILLAGE", "PAMO", "MOU", "None", "62.06N", "163.41W", "103", "US"],
  ["AK NABESNA", "PABN", "IBN", "None", "62.24N", "143.00W", "880", "US"],
  ["AK NELSON LAGOON", "PAOU", "None", "None", "56.00N", "161.10W", "4", "US"],
  ["AK NENANA", "PANN", "ENN", "70260", "64.33N", "149.05W", "110", "US"],
  ["AK NEW STUYAHOK", "PANW", "KNW", "None", "59.27N", "157.22W", "92", "US"],
  ["AK NIKOLAI", "PAFS", "FSP", "None", "63.01N", "154.21W", "126", "US"],
  ["AK NOME", "PAOM", "OME", "70200", "64.30N", "165.26W", "11", "US"],
  ["AK NOME/88D/PAEC", "None", "None", "None", "64.31N", "165.18W", "16", "US"],
  ["AK CHULITNA", "PAEC", "AEC", "None", "62.53N", "149.50W", "381", "US"],
  ["AK NAPAKIAK", "PANA", "None", "None", "60.41N", "161.59W", "5", "US"],
  ["AK NORTHWAY", "PAOR", "ORT", "70291", "62.58N", "141.56W", "523", "US"],
  ["AK NOATAK", "PAWN", "WTK", "None", "67.34N", "162.59W", "30", "US"],
  ["AK NOORVIK", "PFNO", "D76", "None", "66.49N", "161.01W", "17", "US"],
  ["AK NUIQSUT", "PAQT", "AQT", "None", "70.13N", "151.00W", "12", "US"],
  ["AK NUIQSUT VILLAGE", "PALP", "None", "None", "70.20N", "150.56W", "5", "US"],
  ["AK NUNAPITCHUK", "PPIT", "16A", "None", "60.54N", "162.26W", "7", "US"],
  ["AK OLIKTOK POINT", "POLI", "OLI", "70063", "70.30N", "149.53W", "5", "US"],
  ["AK PALMER", "PAAQ", "PAQ", "70274", "61.36N", "149.05W", "73", "US"],
  ["AK PAXSON", "PAXK", "PXK", "None", "63.02N", "145.30W", "809", "US"],
  ["AK PETERSBURG", "PAPG", "PSG", "70386", "56.49N", "132.58W", "15", "US"],
  ["AK PILOT POINT", "PAPN", "PNP", "None", "57.35N", "157.34W", "18", "US"],
  ["AK PLATINUM", "PAPM", "PTU", "None", "59.01N", "161.49W", "5", "US"],
  ["AK POINT HOPE", "PAPO", "PHO", "None", "68.21N", "166.48W", "6", "US"],
  ["AK POINT LAY", "PPIZ", "PIZ", "70121", "69.44N", "163.00W", "8", "US"],
  ["AK PORT ALEXANDER", "PAAP", "AHP", "None", "56.14N", "134.39W", "6", "US"],
  ["AK PORT ALSWORTH", "PALJ", "TPO", "None", "60.12N", "154.18W", "81", "US"],
  ["AK PORT CLARENCE", "PAPC", "KPC", "70119", "65.15N", "166.51W", "3", "US"],
  ["AK PORT HEIDEN", "PAPH", "PTH", "70333", "56.57N", "158.37W", "29", "US"],
  ["AK PORTAGE GLACIER", "PATO", "POR", "None", "60.47N", "148.51W", "31", "US"],
  ["AK PROSPECT CREEK", "PAPR", "PPC", "None", "66.49N", "150.39W", "335", "US"],
  ["AK PRUDHOE BAY", "PAUD", "PUO", "None", "70.15N", "148.20W", "12", "US"],
  ["AK PUNTILLA LAKE", "PAPT", "PTI", "70249", "62.06N", "152.43W", "558", "US"],
  ["AK QUINHAGAK", "PAQH", "None", "None", "59.45N", "161.51W", "13", "US"],
  ["AK REG DOG", "PARD", "None", "None", "68.02N", "162.54W", "297", "US"],
  ["AK REG DOG", "PADG", "DGG", "None", "68.02N", "162.54W", "297", "US"],
  ["AK RUBY", "PARY", "RBY", "None", "64.44N", "155.28W", "199", "US"],
  ["AK RUSSIAN MISSION", "PARS", "RSH", "None", "61.46N", "161.19W", "16", "US"],
  ["AK SAINT MARYS", "PASM", "KSM", "None", "62.04N", "163.18W", "92", "US"],
  ["AK SAND POINT", "PASD", "SDP", "None", "55.20N", "160.30W", "7", "US"],
  ["AK SAVOONGA", "PASA", "SVA", "None", "63.41N", "170.30W", "16", "US"],
  ["AK SCAMMON BAY", "PACM", "SCM", "None", "61.51N", "165.34W", "4", "US"],
  ["AK SELAWIK", "PASK", "WLK", "None", "66.36N", "160.00W", "8", "US"],
  ["AK SELDOVIA", "PASO", "SOV", "None", "59.27N", "151.42W", "9", "US"],
  ["AK SEWARD", "PAWD", "SWD", "70277", "60.07N", "149.25W", "23", "US"],
  ["AK SHAGELUK", "PAHX", "None", "None", "62.42N", "159.34W", "24", "US"],
  ["AK SHAKTOOLIK", "PFSH", "2C7", "None", "64.22N", "161.13W", "7", "US"],
  ["AK SHISHMAREF", "PASH", "SHH", "None", "66.16N", "166.05W", "2", "US"],
  ["AK SHUNGNAK", "PAGH", "SHG", "None", "66.53N", "157.10W", "60", "US"],
  ["AK SITKA", "PASI", "SIT", "70371", "57.04N", "135.21W", "5", "US"],
  ["AK SITKA/BIORKA/88D", "PACG", "ACG", "None", "56.51N", "135.32W", "63", "US"],
  ["AK SKAGWAY", "PAGY", "SGY", "70362", "59.28N", "135.18W", "5", "US"],
  ["AK SKWENTNA", "PASW", "SKW", "70255", "61.58N", "151.12W", "48", "US"],
  ["AK SLANA", "PADT", "DDT", "None", "62.43N", "143.51W", "730", "US"],
  ["AK SLEETMUTE", "PASL", "SLQ", "None", "61.43N", "157.09W", "55", "US"],
  ["AK SNOWSHOE LAKE", "PALK", "LLK", "None", "62.02N", "142.40W", "735", "US"],
  ["AK SOLDOTNA", "PASX", "SXQ", "None", "60.29N", "151.02W", "32", "US"],
  ["AK SOUTH NAKNEK", "PFWS", "None", "None", "58.42N", "157.00W", "49", "US"],
  ["AK SPARREVOHN", "PASV", "SVW", "70235", "61.06N", "155.34W", "484", "US"],
  ["AK ST GEORGE", "PAPB", "PBV", "None", "56.35N", "169.40W", "35", "US"],
  ["AK ST MICHAEL", "PAMK", "None", "None", "63.29N", "162.07W", "28", "US"],
  ["AK ST PAUL ISLAND", "PASN", "SNP", "70308", "57.09N", "170.13W", "29", "US"],
  ["AK STONY RIVER LAND", "PAER", "ERW", "None", "61.16N", "153.48W", "345", "US"],
  ["AK SUTTON", "PAJV", "JVM", "None", "61.43N", "148.53W", "263", "US"],
  ["AK TAHNETNA PASS LO", "PASP", "SMU", "None", "61.49N", "147.33W", "799", "US"],
  ["AK TALKEETNA", "PATK", "TKA", "70251", "62.18N", "150.06W", "109", "US"],
  ["AK TALKEETNA PROF", "None", "TLK", "70252", "62.19N", "150.25W", "137", "US"],
  ["AK TANANA", "PATA", "TAL", "70178", "65.10N", "152.06W", "67", "US"],
  ["AK TATALINA AFS", "PATL", "TLJ", "None", "62.54N", "155.58W", "294", "US"],
  ["AK TELLER", "PATE", "None", "None", "65.14N", "166.20W", "90", "US"],
  ["AK POINT THOMPSON", "PAAD", "None", "None", "70.08N", "146.17W", "8", "US"],
  ["AK TIN CITY AFS", "PATC", "TNC", "70117", "65.34N", "167.55W", "83", "US"],
  ["AK TOGIAK", "PATG", "TOG", "None", "59.03N", "160.23W", "4", "US"],
  ["AK TOKSOOK BAY", "PAOO", "None", "None", "60.32N", "165.07W", "18", "US"],
  ["AK UMIAT", "PAUM", "UMT", "70162", "69.22N", "152.08W", "104", "US"],
  ["AK UNALAKLEET", "PAUN", "UNK", "70207", "63.53N", "160.48W", "6", "US"],
  ["AK DUTCH HARBOR", "PADU", "DUT", "70489", "53.54N", "166.32W", "4", "US"],
  ["AK VALDEZ", "PAVD", "VDZ", "None", "61.08N", "146.15W", "37", "US"],
  ["AK VALDEZ WSO", "PAVW", "VWS", "70275", "61.08N", "146.21W", "11", "US"],
  ["AK WAINWRIGHT", "PAWI", "AWI", "70030", "70.37N", "159.51W", "27", "US"],
  ["AK WALES", "PAIW", "None", "None", "65.37N", "168.06W", "7", "US"],
  ["AK WASILLA", "PAWS", "IYS", "None", "61.34N", "149.32W", "107", "US"],
  ["AK WHITE MOUNTAIN", "PAWM", "WMO", "None", "64.41N", "163.25W", "82", "US"]]

/-- `STATIONS` (database/stations.py 217-316). -/
noncomputable def stations02 : List StationRow := rows! [
  ["AK WHITTIER", "PAWR", "IEM", "None", "60.47N", "148.43W", "47", "US"],
  ["AK WILLOW", "PAUO", "UUO", "None", "61.45N", "150.03W", "69", "US"],
  ["AK WOLVERINE ROAD", "PAIZ", "IZY", "None", "61.38N", "149.02W", "236", "US"],
  ["AK WRANGELL", "PAWG", "WRG", "70387", "56.29N", "132.22W", "11", "US"],
  ["AK YAKUTAT", "PAYA", "YAK", "70361", "59.31N", "139.40W", "11", "US"],
  ["AK ALASKAN ARTCC", "PZ74", "Z74", "None", "60.09N", "164.17W", "1", "US"],
  ["AK ALASKAN ARTCC", "PZ76", "Z76", "None", "65.15N", "134.39W", "647", "US"],
  ["AL ALABASTER", "KEET", "EET", "None", "33.11N", "086.47W", "173", "US"],
  ["AL ALBERTVILLE MUNI", "K8A0", "8A0", "None", "34.14N", "086.15W", "315", "US"],
  ["AL ALEXANDER/RUSSEL", "KALX", "ALX", "None", "32.55N", "085.58W", "209", "US"],
  ["AL ANDALUSIA/OPP AR", "K79J", "79J", "None", "31.19N", "086.24W", "94", "US"],
  ["AL ANNISTON", "KANB", "ANB", "None", "33.35N", "085.51W", "183", "US"],
  ["AL AUBURN UNIV. (AM", "KAUB", "AUB", "None", "32.36N", "085.30W", "198", "US"],
  ["AL AUBURN OPELIKA A", "KAUO", "AUO", "None", "32.37N", "085.25W", "236", "US"],
  ["AL BESSEMER", "KEKY", "EKY", "None", "33.19N", "086.56W", "214", "US"],
  ["AL BIRMINGHAM", "KBHM", "BHM", "72228", "33.34N", "086.45W", "197", "US"],
  ["AL BRMNGHM/ALABASTR", "KBMX", "BMX", "72230", "33.10N", "086.46W", "197", "US"],
  ["AL OZARK/CAIRNS AAF", "KOZR", "OZR", "None", "31.17N", "085.43W", "93", "US"],
  ["AL CENTREVILLE WSM", "K0A8", "0A8", "72229", "32.56N", "087.05W", "77", "US"],
  ["AL COURTLAND", "K9A4", "9A4", "None", "34.40N", "087.21W", "179", "US"],
  ["AL CULLMAN/FOLSOM F", "K3A1", "3A1", "None", "34.16N", "086.51W", "294", "US"],
  ["AL CULLMAN/FOLSOM F", "KCMD", "CMD", "None", "34.16N", "086.51W", "294", "US"],
  ["AL DECATUR", "KDCU", "DCU", "None", "34.39N", "086.57W", "176", "US"],
  ["AL DEMOPOLIS", "KDYA", "DYA", "None", "32.28N", "087.57W", "34", "US"],
  ["AL DOTHAN", "KDHN", "DHN", "None", "31.19N", "085.27W", "113", "US"],
  ["AL ENTERPRISE", "KEDN", "EDN", "None", "31.18N", "085.54W", "110", "US"],
  ["AL EUFAULA", "KEUF", "EUF", "None", "31.57N", "085.08W", "87", "US"],
  ["AL EVERGREEN", "KGZH", "GZH", "None", "31.25N", "087.03W", "78", "US"],
  ["AL FAIRHOPE", "KCQF", "CQF", "None", "30.28N", "087.53W", "28", "US"],
  ["AL FLORALA MUNI", "K0J4", "0J4", "None", "31.03N", "086.19W", "96", "US"],
  ["AL FT PAYNE/ISBELL", "K4A9", "4A9", "None", "34.28N", "085.43W", "267", "US"],
  ["AL FT RUCKER 88D", "KEOX", "EOX", "None", "31.28N", "085.28W", "132", "US"],
  ["AL FT RUCKER/SHELL", "KSXS", "SXS", "None", "31.22N", "085.51W", "122", "US"],
  ["AL FT RUCKER/HANCHE", "KHEY", "HEY", "None", "31.21N", "085.39W", "97", "US"],
  ["AL GADSDEN MUNI", "KGAD", "GAD", "None", "33.58N", "086.04W", "173", "US"],
  ["AL GREENVILLE", "KPRN", "PRN", "None", "31.51N", "086.37W", "138", "US"],
  ["AL GULF SHORES", "KJKA", "JKA", "None", "30.17N", "087.40W", "5", "US"],
  ["AL HALEYVILLE", "K1M4", "1M4", "None", "34.17N", "087.36W", "284", "US"],
  ["AL HUNTSVILLE", "KHSV", "HSV", "72323", "34.39N", "086.47W", "191", "US"],
  ["AL HUNTSVILLE/WFO", "KHUN", "None", "None", "34.43N", "086.39W", "191", "US"],
  ["AL HUNTSVILLE/MADIS", "KMDQ", "MDQ", "None", "34.52N", "086.33W", "230", "US"],
  ["AL HYTOP/88D", "KHTX", "HTX", "None", "34.56N", "086.05W", "536", "US"],
  ["AL JASPER/WALKER", "KJFX", "JFX", "None", "33.54N", "087.19W", "148", "US"],
  ["AL LOWE AHP/FT. RUC", "KLOR", "LOR", "None", "31.21N", "085.45W", "74", "US"],
  ["AL MAXWELL AFB 88D", "KMXX", "MXX", "None", "32.32N", "085.47W", "122", "US"],
  ["AL MAXWELL AFB/MGM", "KMXF", "MXF", "None", "32.22N", "086.22W", "51", "US"],
  ["AL MARION", "KA08", "A08", "None", "32.31N", "087.23W", "68", "US"],
  ["AL MOBILE/BROOKLEY", "KBFM", "BFM", "None", "30.37N", "088.04W", "20", "US"],
  ["AL MOBILE/BATES", "KMOB", "MOB", "72223", "30.41N", "088.15W", "63", "US"],
  ["AL MONTGOMERY", "KMGM", "MGM", "72226", "32.18N", "086.24W", "63", "US"],
  ["AL MUSCLE SHOAL", "KMSL", "MSL", "None", "34.45N", "087.36W", "164", "US"],
  ["AL MONROEVILLE", "KMVC", "MVC", "None", "31.27N", "087.21W", "128", "US"],
  ["AL PELL CITY", "KPLR", "PLR", "None", "33.34N", "086.15W", "148", "US"],
  ["AL PHI OIL PLAT", "KRAM", "RAM", "None", "29.03N", "088.05W", "10", "US"],
  ["AL PRATTVILLE", "K1A9", "1A9", "None", "32.26N", "086.31W", "69", "US"],
  ["AL REDSTONE ARSENAL", "KHUA", "HUA", "74001", "34.41N", "086.41W", "209", "US"],
  ["AL SCOTTSBORO", "K4A6", "4A6", "None", "34.41N", "086.00W", "198", "US"],
  ["AL SELMA", "KSEM", "SEM", "None", "32.21N", "086.59W", "51", "US"],
  ["AL SEMMNES VOR", "KSJI", "SJI", "None", "30.44N", "088.22W", "63", "US"],
  ["AL SYLACAUGA", "KSCD", "SCD", "None", "33.10N", "086.18W", "174", "US"],
  ["AL TALLADEGA", "KASN", "ASN", "None", "33.34N", "086.03W", "162", "US"],
  ["AL TROY", "KTOI", "TOI", "None", "31.51N", "086.01W", "118", "US"],
  ["AL TUSCALOOSA", "KTCL", "TCL", "None", "33.13N", "087.37W", "49", "US"],
  ["AL VULCAN VOR", "KVUZ", "VUZ", "None", "33.40N", "086.54W", "250", "US"],
  ["AL CENTREVILLE WSM", "KCKL", "CKL", "None", "32.53N", "087.15W", "140", "US"],
  ["AL DAUPHIN ISLAND", "K4R9", "4R9", "99442", "30.16N", "088.08W", "2", "US"],
  ["AL FAIRHOPE", "K4R4", "4R4", "None", "30.28N", "087.53W", "28", "US"],
  ["AL HUNTSVILLE/MADIS", "KM82", "M82", "None", "34.51N", "086.33W", "231", "US"],
  ["AL VIOSCA KNOLL768", "KVOA", "VOA", "None", "29.14N", "087.47W", "53", "US"],
  ["AR ARKADELPHIA", "KADF", "ADF", "None", "34.06N", "093.04W", "56", "US"],
  ["AR BATESVILLE", "KBVX", "BVX", "None", "35.44N", "091.39W", "141", "US"],
  ["AR BENTONVILLE", "KH00", "H00", "None", "36.21N", "094.13W", "395", "US"],
  ["AR BENTONVILLE", "KVBT", "VBT", "None", "36.21N", "094.13W", "395", "US"],
  ["AR BENTONVILLE (NW)", "KXNA", "XNA", "None", "36.17N", "094.18W", "392", "US"],
  ["AR BLYTHEVILLE", "KHKA", "HKA", "None", "35.56N", "089.50W", "78", "US"],
  ["AR BLYTHEVILLE", "KBYH", "BYH", "None", "35.58N", "089.57W", "78", "US"],
  ["AR CAMDEN", "KCDH", "CDH", "None", "33.37N", "092.46W", "35", "US"],
  ["AR CLINTON MUNI", "KCCA", "CCA", "None", "35.36N", "092.27W", "157", "US"],
  ["AR CONWAY", "KCXW", "CXW", "None", "35.01N", "092.33W", "85", "US"],
  ["AR CORNING", "K4M9", "4M9", "None", "36.24N", "090.39W", "90", "US"],
  ["AR DE QUEEN", "KDEQ", "DEQ", "None", "34.03N", "094.24W", "106", "US"],
  ["AR DEQUEEN PROFILER", "KDQU", "DQU", "74752", "34.06N", "094.17W", "195", "US"],
  ["AR EL DORADO", "KELD", "ELD", "None", "33.13N", "092.49W", "81", "US"],
  ["AR FAYETTEVILLE", "KFYV", "FYV", "None", "36.01N", "094.10W", "379", "US"],
  ["AR FLIPPIN (AWOS)", "KFLP", "FLP", "None", "36.17N", "092.35W", "219", "US"],
  ["AR FORT SMITH", "KFSM", "FSM", "72344", "35.20N", "094.22W", "140", "US"],
  ["AR SLATINGTON MTN.", "KSRX", "SRX", "None", "35.17N", "094.22W", "195", "US"],
  ["AR HARRISON", "KHRO", "HRO", "None", "36.16N", "093.09W", "417", "US"],
  ["AR HOT SPRINGS", "KHOT", "HOT", "None", "34.29N", "093.06W", "162", "US"],
  ["AR JONESBORO", "KJBR", "JBR", "None", "35.50N", "090.39W", "79", "US"],
  ["AR LITTLE ROCK", "KLIT", "LIT", "None", "34.44N", "092.14W", "79", "US"],
  ["AR LITTLE ROCK AFB", "KLRF", "LRF", "None", "34.55N", "092.09W", "95", "US"],
  ["AR MENA INTERMTN", "KMEZ", "MEZ", "None", "34.33N", "094.12W", "329", "US"],
  ["AR W MEMPHIS MUNI", "KAWM", "AWM", "None", "35.08N", "090.14W", "65", "US"],
  ["AR MONTICELLO", "KLLQ", "LLQ", "None", "33.38N", "091.45W", "83", "US"],
  ["AR MOUNT IDA", "KMWT", "MWT", "None", "34.33N", "093.35W", "214", "US"],
  ["AR MOUNTAIN HOME", "KBPK", "BPK", "None", "36.22N", "092.28W", "280", "US"],
  ["AR N. LITTLE ROCK", "KLZK", "LZK", "72340", "34.50N", "092.16W", "173", "US"],
  ["AR NEWPORT", "KM19", "M19", "None", "35.39N", "091.10W", "73", "US"],
  ["AR PINE BLUFF/GRIDR", "KPBF", "PBF", "None", "34.11N", "091.56W", "62", "US"]]

/-- `STATIONS` (database/stations.py 317-416). -/
noncomputable def stations03 : List StationRow := rows! [
  ["AR RAZORBACK VOR", "KRZC", "RZC", "None", "36.15N", "094.07W", "443", "US"],
  ["AR ROGERS", "KROG", "ROG", "None", "36.22N", "094.05W", "415", "US"],
  ["AR RUSSELLVILLE", "KRUE", "RUE", "None", "35.15N", "093.06W", "115", "US"],
  ["AR SEARCY", "KSRC", "SRC", "None", "35.13N", "091.44W", "80", "US"],
  ["AR SILOAM SPRING", "KSLG", "SLG", "None", "36.12N", "094.28W", "300", "US"],
  ["AR SPRINGDALE MUNI", "KASG", "ASG", "None", "36.10N", "094.07W", "412", "US"],
  ["AR STUTTGART", "KSGT", "SGT", "None", "34.36N", "091.34W", "68", "US"],
  ["AR TEXARKANA", "KTXK", "TXK", "None", "33.27N", "093.59W", "111", "US"],
  ["AR WALNUT RIDGE", "KARG", "ARG", "None", "36.07N", "090.55W", "83", "US"],
  ["AR ARKADELPHIA", "KM89", "M89", "None", "34.06N", "093.04W", "56", "US"],
  ["AR FORT CHAFFEE", "None", "None", "69050", "35.10N", "094.48W", "143", "US"],
  ["AR MENA INTERMTN", "KM39", "M39", "None", "34.33N", "094.12W", "329", "US"],
  ["AZ PHOENIX/SKY HRBR", "KPHX", "PHX", "72278", "33.26N", "112.01W", "336", "US"],
  ["AZ TUCSON", "KTUS", "TUS", "None", "32.08N", "110.57W", "776", "US"],
  ["AZ BUCKEYE", "KBXK", "BXK", "None", "33.25N", "112.41W", "315", "US"],
  ["AZ BULLHEAD CITY", "KIFP", "IFP", "None", "35.09N", "114.34W", "212", "US"],
  ["AZ CASA GRANDA", "KCGZ", "CGZ", "None", "32.57N", "111.46W", "446", "US"],
  ["AZ CHANDLER/MESA", "KIWA", "IWA", "None", "33.18N", "111.39W", "412", "US"],
  ["AZ CHANDLER", "KCHD", "CHD", "None", "33.16N", "111.49W", "379", "US"],
  ["AZ COCONINO/FLAGSTF", "KFSX", "FSX", "None", "34.34N", "111.12W", "2261", "US"],
  ["AZ COLORADO CITY", "KAZC", "AZC", "None", "36.58N", "113.01W", "1486", "US"],
  ["AZ COOLIDGE MUNI", "KP08", "P08", "None", "32.56N", "111.26W", "481", "US"],
  ["AZ DAVIS/TUCSON", "KDMA", "DMA", "None", "32.10N", "110.52W", "824", "US"],
  ["AZ DOUGLAS BISBEE", "KDUG", "DUG", "None", "31.28N", "109.35W", "1265", "US"],
  ["AZ FLAGSTAFF", "KFLG", "FLG", "72375", "35.08N", "111.40W", "2134", "US"],
  ["AZ FLAGSTAFF/BELLEM", "KFGZ", "FGZ", "72376", "35.14N", "111.49W", "2192", "US"],
  ["AZ FORT HUACHUCA", "KFHU", "FHU", "72273", "31.35N", "110.21W", "1438", "US"],
  ["AZ GILA BEND (AAF)", "KGXF", "GXF", "74724", "32.52N", "112.43W", "262", "US"],
  ["AZ GLENDALE", "KGEU", "GEU", "None", "33.32N", "112.18W", "325", "US"],
  ["AZ LUKE AFB/GLENDAL", "KLUF", "LUF", "None", "33.31N", "112.22W", "332", "US"],
  ["AZ GOODYEAR MUNICIP", "KGYR", "GYR", "None", "33.25N", "112.22W", "295", "US"],
  ["AZ GRAND CANYON", "KGCN", "GCN", "72378", "35.57N", "112.09W", "2016", "US"],
  ["AZ GRAND CANYON/VAL", "K40G", "40G", "None", "35.38N", "112.09W", "1830", "US"],
  ["AZ KINGMAN", "KIGM", "IGM", "72370", "35.15N", "113.56W", "1032", "US"],
  ["AZ LAKE HAVASU CITY", "KHII", "HII", "None", "34.34N", "114.22W", "238", "US"],
  ["AZ MARANA", "KAVQ", "AVQ", "None", "32.24N", "111.13W", "620", "US"],
  ["AZ MARICOPA AK-CHIN", "KA39", "A39", "None", "32.59N", "111.55W", "398", "US"],
  ["AZ MESA/FALCON FLD", "KFFZ", "FFZ", "None", "33.28N", "111.43W", "424", "US"],
  ["AZ NOGALES", "KOLS", "OLS", "None", "31.25N", "110.51W", "1184", "US"],
  ["AZ PAGE", "KPGA", "PGA", "72371", "36.55N", "111.27W", "1307", "US"],
  ["AZ PAYSON", "KPAN", "PAN", "None", "34.15N", "111.20W", "1572", "US"],
  ["AZ PEACH SPRING", "KPGS", "PGS", "None", "35.37N", "113.32W", "1450", "US"],
  ["AZ PHOENIX/DEER VLY", "KDVT", "DVT", "None", "33.41N", "112.04W", "443", "US"],
  ["AZ PHOENIX/WFO", "KPSR", "PSR", "74626", "33.26N", "112.01W", "342", "US"],
  ["AZ PIMA COUNTY/88D", "KEMX", "EMX", "None", "31.54N", "110.38W", "1586", "US"],
  ["AZ PIONEER AIRFIELD", "KALK", "ALK", "None", "31.36N", "110.26W", "1453", "US"],
  ["AZ PRESCOTT", "KPRC", "PRC", "None", "34.39N", "112.25W", "1524", "US"],
  ["AZ PRESCOTT(VOR)", "KDRK", "DRK", "None", "34.42N", "112.29W", "1524", "US"],
  ["AZ SAFFORD", "KSAD", "SAD", "None", "32.51N", "109.38W", "962", "US"],
  ["AZ SAN SIMON", "KSSO", "SSO", "None", "32.16N", "109.15W", "1097", "US"],
  ["AZ SCOTTSDALE", "KSDL", "SDL", "None", "33.37N", "111.55W", "447", "US"],
  ["AZ SEDONA", "KSEZ", "SEZ", "None", "34.51N", "111.47W", "1473", "US"],
  ["AZ SHOW LOW MUNICIP", "KSOW", "SOW", "None", "34.16N", "110.00W", "1954", "US"],
  ["AZ SPRINGERVILLE", "KJTC", "JTC", "None", "34.08N", "109.19W", "2151", "US"],
  ["AZ ST. JOHNS", "KSJN", "SJN", "None", "34.31N", "109.23W", "1745", "US"],
  ["AZ TUBA CITY", "KTBC", "TBC", "None", "36.07N", "111.16W", "1538", "US"],
  ["AZ TUCSON/WFO", "KTWC", "TWC", "72274", "32.14N", "110.57W", "752", "US"],
  ["AZ TUCSON/RYAN FLD", "KRYN", "RYN", "None", "32.09N", "111.10W", "737", "US"],
  ["AZ WELLTON", "KNOZ", "NOZ", "None", "32.31N", "114.28W", "103", "US"],
  ["AZ WILLIAMS CLARK", "KCMR", "CMR", "None", "35.18N", "112.12W", "2036", "US"],
  ["AZ WINDOW ROCK", "KRQE", "RQE", "None", "35.39N", "109.04W", "2055", "US"],
  ["AZ WINSLOW", "KINW", "INW", "72374", "35.02N", "110.43W", "1490", "US"],
  ["AZ YUMA/88D", "KYUX", "None", "None", "32.30N", "114.39W", "53", "US"],
  ["AZ YUMA INTL", "KYUM", "YUM", "72280", "32.38N", "114.35W", "63", "US"],
  ["AZ YUMA MCAS", "KNYL", "NYL", "69960", "32.38N", "114.37W", "65", "US"],
  ["AZ YUMA PRVG GROUN", "K1Y7", "1Y7", "74004", "32.30N", "114.24W", "231", "US"],
  ["AZ YUMA PRVG GROUN", "None", "None", "69031", "32.30N", "114.24W", "231", "US"],
  ["AZ YUMA (VOR)", "KBZA", "BZA", "None", "32.46N", "114.36W", "63", "US"],
  ["AZ GILA BEND (AAF)", "KGBN", "GBN", "None", "32.52N", "112.43W", "262", "US"],
  ["AZ NOGALES", "K13A", "13A", "None", "31.25N", "110.51W", "1198", "US"],
  ["AZ PAYSON", "K0E4", "0E4", "None", "34.13N", "111.19W", "1498", "US"],
  ["AZ SAFFORD", "KE74", "E74", "None", "32.49N", "109.41W", "900", "US"],
  ["AZ SHOW LOW", "KE03", "E03", "None", "34.15N", "110.02W", "1955", "US"],
  ["AZ TUBA CITY", "KT03", "T03", "None", "36.06N", "111.23W", "1400", "US"],
  ["AZ WINDOW ROCK", "KP34", "P34", "None", "35.39N", "109.04W", "2055", "US"],
  ["CA ALAMEDA NAS", "KNGZ", "NGZ", "74506", "37.46N", "122.19W", "4", "US"],
  ["CA ALTURAS", "KAAT", "AAT", "None", "41.29N", "120.34W", "1331", "US"],
  ["CA APPLE VALLEY", "KAPV", "APV", "None", "34.34N", "117.11W", "934", "US"],
  ["CA ARCATA/EUREKA", "KACV", "ACV", "None", "40.59N", "124.06W", "67", "US"],
  ["CA AUBURN MUNI", "KAUN", "AUN", "None", "38.57N", "121.05W", "467", "US"],
  ["CA AVALON", "KAVX", "AVX", "72292", "33.24N", "118.25W", "482", "US"],
  ["CA BAKERSFIELD", "KBFL", "BFL", "72384", "35.26N", "119.03W", "151", "US"],
  ["CA BAKERSFIELD(VOR)", "KEHF", "EHF", "None", "35.29N", "119.06W", "151", "US"],
  ["CA BEALE AFB/MARYSV", "KBAB", "BAB", "None", "39.07N", "121.25W", "34", "US"],
  ["CA BEALE/ORO DAM", "KBBX", "BBX", "None", "39.30N", "121.38W", "53", "US"],
  ["CA BEAUMONT", "KBUO", "BUO", "None", "33.55N", "116.58W", "692", "US"],
  ["CA BIG BEAR CITY", "KL35", "L35", "None", "34.16N", "116.51W", "2059", "US"],
  ["CA BICYCLE LAKE", "KBYS", "BYS", "74611", "35.17N", "116.37W", "716", "US"],
  ["CA BISHOP", "KBIH", "BIH", "72480", "37.22N", "118.21W", "1253", "US"],
  ["CA BLYTHE", "KBLH", "BLH", "None", "33.37N", "114.43W", "119", "US"],
  ["CA BRIDGEPORT", "KO57", "O57", "None", "38.16N", "119.13W", "1973", "US"],
  ["CA BRIDGEPORT(MCMWT", "KBAN", "None", "None", "38.21N", "119.31W", "2057", "US"],
  ["CA BURBANK", "KBUR", "BUR", "72288", "34.12N", "118.22W", "217", "US"],
  ["CA BURNEY", "KBNY", "BNY", "None", "40.52N", "121.40W", "957", "US"],
  ["CA CALEXICO INTL", "KCXL", "CXL", "None", "32.40N", "115.30W", "1", "US"],
  ["CA CAMARILLO", "KCMA", "CMA", "None", "34.13N", "119.06W", "23", "US"],
  ["CA CAMP PENDLETON", "KNFG", "NFG", "None", "33.17N", "117.20W", "24", "US"],
  ["CA CAMP ROBERTS", "KSYL", "SYL", "None", "35.45N", "120.42W", "220", "US"],
  ["CA CAMPO", "KCZZ", "CZZ", "None", "32.38N", "116.28W", "807", "US"],
  ["CA CARLSBAD", "KCRQ", "CRQ", "None", "33.08N", "117.17W", "99", "US"]]

/-- `STATIONS` (database/stations.py 417-516). -/
noncomputable def stations04 : List StationRow := rows! [
  ["CA CHICO MUNICIPAL", "KCIC", "CIC", "72497", "39.47N", "121.50W", "73", "US"],
  ["CA CHINA LAKE (NAF)", "KNID", "NID", "74612", "35.40N", "117.40W", "696", "US"],
  ["CA CHINO", "KCNO", "CNO", "None", "33.59N", "117.37W", "207", "US"],
  ["CA COLUMBIA", "KO22", "O22", "None", "38.02N", "120.25W", "646", "US"],
  ["CA CONCORD", "KCCR", "CCR", "None", "38.00N", "122.03W", "11", "US"],
  ["CA CORONA MUNI", "KAJO", "AJO", "None", "33.54N", "117.36W", "163", "US"],
  ["CA CRESCENT CITY", "KCEC", "CEC", "None", "41.46N", "124.13W", "17", "US"],
  ["CA DAGGETT", "KDAG", "DAG", "None", "34.51N", "116.47W", "587", "US"],
  ["CA DAVIS", "KEDU", "EDU", "None", "38.32N", "121.47W", "21", "US"],
  ["CA EDWARDS AFB", "KEDW", "EDW", "72381", "34.53N", "117.52W", "702", "US"],
  ["CA EDWARDS AFB/88D", "KEYX", "EYX", "None", "35.06N", "117.34W", "840", "US"],
  ["CA EDWARDS N-AUX", "K9L2", "9L2", "None", "34.58N", "117.52W", "701", "US"],
  ["CA EL CENTRO NAF", "KNJK", "NJK", "72281", "32.49N", "115.40W", "-13", "US"],
  ["CA EL MONTE", "KEMT", "EMT", "74704", "34.04N", "118.01W", "90", "US"],
  ["CA EMIGRANT GAP", "KBLU", "BLU", "None", "39.17N", "120.42W", "1609", "US"],
  ["CA EUREKA/MURRAY", "KEKA", "EKA", "72594", "40.48N", "124.10W", "18", "US"],
  ["CA FALLBROOK", "KL18", "L18", "None", "33.21N", "117.15W", "216", "US"],
  ["CA FORTUNA/FOT/VOR", "None", "None", "None", "40.40N", "124.14W", "122", "US"],
  ["CA FORTUNA", "KFOT", "FOT", "None", "40.33N", "124.08W", "120", "US"],
  ["CA FRESNO", "KFAT", "FAT", "72389", "36.47N", "119.43W", "104", "US"],
  ["CA FRESNO(VOR)", "KCZQ", "CZQ", "None", "36.53N", "119.49W", "104", "US"],
  ["CA FRESNO CHANDLER", "KFCH", "FCH", "None", "36.43N", "119.49W", "85", "US"],
  ["CA FULLERTON", "KFUL", "FUL", "None", "33.52N", "117.59W", "35", "US"],
  ["CA GRASS VALLEY", "KGOO", "GOO", "None", "39.13N", "121.00W", "962", "US"],
  ["CA HALF MOON BAY", "KHAF", "HAF", "None", "37.31N", "122.30W", "21", "US"],
  ["CA HANFORD", "KHJO", "HJO", "None", "36.19N", "119.37W", "74", "US"],
  ["CA HANFORD/SAN JOAQ", "KHNX", "HNX", "None", "36.19N", "119.38W", "74", "US"],
  ["CA HANFORD", "KO18", "O18", "None", "36.19N", "119.38W", "74", "US"],
  ["CA HAWTHORNE", "KHHR", "HHR", "None", "33.55N", "118.20W", "18", "US"],
  ["CA HAYWARD", "KHWD", "HWD", "None", "37.40N", "122.07W", "21", "US"],
  ["CA HEALDSBURG", "KHES", "HES", "None", "38.39N", "122.54W", "85", "US"],
  ["CA HECTOR(VOR)", "KHEC", "HEC", "None", "34.48N", "116.28W", "617", "US"],
  ["CA HOLLISTER MUNI", "KCVH", "CVH", "None", "36.54N", "121.25W", "70", "US"],
  ["CA HUMBOLDT CTY/88D", "KBHX", "BHX", "None", "40.30N", "124.18W", "732", "US"],
  ["CA HUNTER LIGGET", "KHGT", "HGT", "69002", "36.00N", "121.13W", "310", "US"],
  ["CA IMPERIAL", "KIPL", "IPL", "None", "32.50N", "115.35W", "-17", "US"],
  ["CA IMPERIAL BEACH", "KNRS", "NRS", "None", "32.34N", "117.07W", "7", "US"],
  ["CA INYOKERN", "KIYK", "IYK", "None", "35.40N", "117.49W", "749", "US"],
  ["CA LA VERNE/BRACKET", "KPOC", "POC", "None", "34.06N", "117.46W", "308", "US"],
  ["CA LANCASTER/FOX", "KWJF", "WJF", "None", "34.43N", "118.13W", "715", "US"],
  ["CA LEMOORE NAS/REEV", "KNLC", "NLC", "74702", "36.19N", "119.57W", "72", "US"],
  ["CA LINCOLN", "KLHM", "LHM", "None", "38.55N", "121.21W", "37", "US"],
  ["CA LITTLE RIVER", "KLLR", "LLR", "None", "39.16N", "123.45W", "175", "US"],
  ["CA LIVERMORE", "KLVK", "LVK", "None", "37.42N", "121.49W", "117", "US"],
  ["CA LOMPOC", "KLPC", "LPC", "74606", "34.40N", "120.28W", "27", "US"],
  ["CA LONG BEACH", "KLGB", "LGB", "72297", "33.49N", "118.09W", "10", "US"],
  ["CA LOS ALAMITOS AAF", "KSLI", "SLI", "None", "33.46N", "118.02W", "11", "US"],
  ["CA LOS ANGELES", "KLAX", "LAX", "72295", "33.56N", "118.23W", "46", "US"],
  ["CA LOS ANGELES/OXNA", "KLOX", "LOX", "None", "34.12N", "119.12W", "20", "US"],
  ["CA LOS ANGELS/ARTCC", "KZLA", "ZLA", "None", "34.38N", "118.05W", "819", "US"],
  ["CA LOS ANGELES", "KCQT", "CQT", "None", "34.01N", "118.17W", "56", "US"],
  ["CA LA / WHITEMAN", "KWHP", "None", "None", "34.15N", "118.25W", "306", "US"],
  ["CA MADERA", "KMAE", "MAE", "None", "36.59N", "120.07W", "77", "US"],
  ["CA MAMMOTH/JUNE LAK", "KMMH", "MMH", "None", "37.37N", "118.49W", "2173", "US"],
  ["CA MARYSVILLE", "KMYV", "MYV", "None", "39.06N", "121.34W", "21", "US"],
  ["CA MATHER FIELD", "KMHR", "MHR", "None", "38.32N", "121.17W", "29", "US"],
  ["CA MCCLELLAN AFB", "KMCC", "MCC", "None", "38.40N", "121.24W", "23", "US"],
  ["CA MERCED", "KMCE", "MCE", "None", "37.17N", "120.30W", "47", "US"],
  ["CA MERCED/CASTLE AF", "KMER", "MER", "72481", "37.23N", "120.34W", "57", "US"],
  ["CA MIRAMAR NAS/SAN", "KNKX", "NKX", "72293", "32.52N", "117.08W", "146", "US"],
  ["CA MISSION BAY VOR", "KMZB", "MZB", "None", "32.47N", "117.14W", "12", "US"],
  ["CA MODESTO", "KMOD", "MOD", "None", "37.37N", "120.57W", "29", "US"],
  ["CA MOFFETT NAS/MTN", "KNUQ", "NUQ", "74509", "37.24N", "122.03W", "12", "US"],
  ["CA MOJAVE", "KMHV", "MHV", "None", "35.04N", "118.09W", "849", "US"],
  ["CA MONTAGUE/SISKIYO", "KSIY", "SIY", "None", "41.46N", "122.28W", "807", "US"],
  ["CA MONTEREY", "KMRY", "MRY", "None", "36.35N", "121.51W", "66", "US"],
  ["CA MONTEREY/WFOKMTR", "None", "None", "None", "36.35N", "121.51W", "66", "US"],
  ["CA MOUNT SHASTA", "KMHS", "MHS", "72595", "41.19N", "122.19W", "1078", "US"],
  ["CA MOUNT WILSON", "KMWS", "MWS", "72289", "34.14N", "118.03W", "1739", "US"],
  ["CA MURRIETA/TEMECUL", "KF70", "F70", "None", "33.34N", "117.08W", "412", "US"],
  ["CA NAPA", "KAPC", "APC", "None", "38.12N", "122.17W", "13", "US"],
  ["CA NEEDLES", "KEED", "EED", "72380", "34.46N", "114.37W", "302", "US"],
  ["CA NEWHALL", "K3A6", "3A6", "None", "34.22N", "118.34W", "427", "US"],
  ["CA NORTH ISLAND NAS", "KNZY", "NZY", "None", "32.42N", "117.13W", "8", "US"],
  ["CA NOVATO/GNOSS FLD", "KDVO", "DVO", "None", "38.09N", "122.33W", "1", "US"],
  ["CA OAKLAND", "KOAK", "OAK", "72493", "37.43N", "122.14W", "26", "US"],
  ["CA OAKLAND/ARTCC", "KZOA", "ZOA", "None", "37.33N", "122.01W", "11", "US"],
  ["CA OCEANSIDE", "KOKB", "OKB", "None", "33.13N", "117.21W", "8", "US"],
  ["CA OCEANSIDE/RED-B", "KNXF", "NXF", "None", "33.17N", "117.27W", "27", "US"],
  ["CA ONTARIO", "KONT", "ONT", "None", "34.03N", "117.35W", "274", "US"],
  ["CA ORANGE CTY/88D", "KSOX", "SOX", "None", "33.49N", "117.38W", "923", "US"],
  ["CA ORCUTT OIL/VBG", "KVBX", "VBX", "None", "34.50N", "120.24W", "373", "US"],
  ["CA OROVILLE", "KOVE", "OVE", "None", "39.30N", "121.37W", "58", "US"],
  ["CA OXNARD", "KOXR", "OXR", "None", "34.12N", "119.12W", "20", "US"],
  ["CA PALM SPRINGS", "KPSP", "PSP", "None", "33.49N", "116.30W", "135", "US"],
  ["CA PALMDALE", "KPMD", "PMD", "72382", "34.38N", "118.05W", "780", "US"],
  ["CA PALMDALE", "KGXA", "GXA", "None", "34.34N", "117.40W", "923", "US"],
  ["CA PALO ALTO", "KPAO", "PAO", "None", "37.28N", "122.07W", "2", "US"],
  ["CA PASO ROBLES", "KPRB", "PRB", "None", "35.40N", "120.38W", "245", "US"],
  ["CA PETALUMA", "KO69", "O69", "None", "38.15N", "122.36W", "28", "US"],
  ["CA PLACERVILLE", "KPVF", "PVF", "None", "38.43N", "120.45W", "789", "US"],
  ["CA POINT MUGU NAS", "KNTD", "NTD", "72391", "34.07N", "119.07W", "4", "US"],
  ["CA POINT REYES VOR", "KPYE", "PYE", "None", "38.05N", "122.52W", "447", "US"],
  ["CA PORTERVILLE", "KPTV", "PTV", "None", "36.01N", "119.04W", "135", "US"],
  ["CA PT. PIEDRAS BLAN", "K87Q", "87Q", "72390", "35.40N", "121.17W", "27", "US"],
  ["CA RED BLUFF", "KRBL", "RBL", "72591", "40.09N", "122.15W", "104", "US"],
  ["CA REDDING", "KRDD", "RDD", "72592", "40.31N", "122.18W", "155", "US"],
  ["CA REDLANDS", "KREI", "REI", "None", "34.05N", "117.09W", "480", "US"],
  ["CA RIO VISTA", "KO88", "O88", "None", "38.12N", "121.42W", "7", "US"],
  ["CA RIVERSIDE", "KRAL", "RAL", "None", "33.57N", "117.27W", "252", "US"]]

/-- `STATIONS` (database/stations.py 517-616). -/
noncomputable def stations05 : List StationRow := rows! [
  ["CA RIVERSIDE/MARCH", "KRIV", "RIV", "72286", "33.52N", "117.16W", "469", "US"],
  ["CA RAMONA", "KRNM", "RNM", "None", "33.02N", "116.55W", "427", "US"],
  ["CA SACRAMENTO", "KSAC", "SAC", "None", "38.30N", "121.30W", "11", "US"],
  ["CA SACRAMENTO/WFO", "KSTO", "STO", "72483", "38.30N", "121.30W", "11", "US"],
  ["CA SACRAMENTO/RFC", "KRSA", "RSA", "None", "38.30N", "121.30W", "11", "US"],
  ["CA SACRAMENTO/88D", "KDAX", "DAX", "None", "38.30N", "121.41W", "9", "US"],
  ["CA SACRAMENTO/METRO", "KSMF", "SMF", "None", "38.42N", "121.36W", "6", "US"],
  ["CA SALINAS", "KSNS", "SNS", "None", "36.40N", "121.36W", "30", "US"],
  ["CA SAN BERNARDINO", "KSBD", "SBD", "None", "34.05N", "117.15W", "353", "US"],
  ["CA SAN CARLOS AIRPO", "KSQL", "SQL", "None", "37.31N", "122.15W", "1", "US"],
  ["CA SAN CLEMENTE IS.", "KNUC", "NUC", "None", "33.01N", "118.34W", "55", "US"],
  ["CA SAN DIEGO", "KSAN", "SAN", "72290", "32.44N", "117.11W", "12", "US"],
  ["CA SAN DIEGO/MNTGMY", "KMYF", "MYF", "None", "32.49N", "117.08W", "136", "US"],
  ["CA SAN DIEGO/BROWN", "KSDM", "SDM", "None", "32.35N", "117.00W", "159", "US"],
  ["CA SAN DIEGO/SANTEE", "KSEE", "SEE", "None", "32.49N", "116.58W", "117", "US"],
  ["CA SAN DIEGO/WFO", "KSGX", "SGX", "None", "32.44N", "117.10W", "9", "US"],
  ["CA SAN FRANCISCO", "KSFO", "SFO", "72494", "37.37N", "122.22W", "3", "US"],
  ["CA SAN JOSE", "KSJC", "SJC", "74505", "37.22N", "121.55W", "24", "US"],
  ["CA SAN JOSE/REID", "KRHV", "RHV", "None", "37.19N", "121.49W", "41", "US"],
  ["CA SAN LUIS OBISPO", "KSBP", "SBP", "None", "35.14N", "120.38W", "59", "US"],
  ["CA SAN MARTIN", "KE16", "E16", "None", "37.05N", "121.36W", "86", "US"],
  ["CA SAN NICOLAS ISLA", "KNSI", "NSI", "72291", "33.13N", "119.27W", "154", "US"],
  ["CA SANDBERG", "KSDB", "SDB", "72383", "34.45N", "118.43W", "1377", "US"],
  ["CA COSTA MESA", "KSNA", "SNA", "None", "33.40N", "117.52W", "16", "US"],
  ["CA SANTA BARBARA", "KSBA", "SBA", "None", "34.26N", "119.51W", "3", "US"],
  ["CA SANTA BARB(VOR)", "KRZS", "RZS", "None", "34.31N", "119.46W", "1104", "US"],
  ["CA SANTA CLAR/88D", "KMUX", "MUX", "None", "37.09N", "121.54W", "1057", "US"],
  ["CA SANTA MARIA", "KSMX", "SMX", "72394", "34.54N", "120.27W", "74", "US"],
  ["CA SANTA MONICA", "KSMO", "SMO", "None", "34.01N", "118.27W", "57", "US"],
  ["CA SANTA ROSA", "KSTS", "STS", "None", "38.30N", "122.49W", "39", "US"],
  ["CA SANTA YNEZ", "KIZA", "IZA", "None", "34.36N", "120.04W", "205", "US"],
  ["CA SHELTER COVE", "KO87", "O87", "None", "40.01N", "124.04W", "21", "US"],
  ["CA SOUTH LAKE TAHOE", "KTVL", "TVL", "None", "38.54N", "120.00W", "1924", "US"],
  ["CA STOCKTON", "KSCK", "SCK", "72492", "37.53N", "121.13W", "10", "US"],
  ["CA SUSANVILLE MUNI", "KSVE", "SVE", "72584", "40.22N", "120.34W", "1263", "US"],
  ["CA THERMAL/PALM SPG", "KTRM", "TRM", "None", "33.38N", "116.10W", "-35", "US"],
  ["CA TORRANCE MUNICIP", "KTOA", "TOA", "None", "33.47N", "118.19W", "31", "US"],
  ["CA TRAVIS AFB/FAIRF", "KSUU", "SUU", "74516", "38.16N", "121.55W", "19", "US"],
  ["CA TRUCKEE TAHOE", "KTRK", "TRK", "None", "39.19N", "120.07W", "1798", "US"],
  ["CA TEHACHAPI", "KTSP", "TSP", "None", "35.08N", "118.26W", "1220", "US"],
  ["CA TRINITY CENTER", "KO86", "O86", "None", "40.59N", "122.42W", "729", "US"],
  ["CA TWENTYNINE PALMS", "KNXP", "NXP", "69015", "34.17N", "116.10W", "626", "US"],
  ["CA UKIAH", "KUKI", "UKI", "None", "39.07N", "123.12W", "187", "US"],
  ["CA UKIAH(VOR)", "KENI", "ENI", "None", "39.03N", "123.16W", "187", "US"],
  ["CA VACAVILLE", "KVCB", "VCB", "None", "38.23N", "121.57W", "33", "US"],
  ["CA VAN NUYS", "KVNY", "VNY", "None", "34.13N", "118.29W", "245", "US"],
  ["CA VANDENBERG AFB", "KVBG", "VBG", "72393", "34.44N", "120.35W", "112", "US"],
  ["CA VANDENBERG RANGE", "KXVW", "XVW", "None", "34.43N", "120.34W", "100", "US"],
  ["CA VENTURA CTY/88D", "KVTX", "VTX", "None", "34.25N", "119.11W", "831", "US"],
  ["CA VICTORVILLE", "KVCV", "VCV", "None", "34.35N", "117.23W", "876", "US"],
  ["CA VISALIA MUNI", "KVIS", "VIS", "None", "36.19N", "119.24W", "89", "US"],
  ["CA WATSONVILLE", "KWVI", "WVI", "None", "36.56N", "121.47W", "43", "US"],
  ["CA WEAVERVILLE", "KO54", "O54", "None", "40.45N", "122.55W", "717", "US"],
  ["CA ALTURAS", "KO00", "O00", "None", "41.29N", "120.34W", "1331", "US"],
  ["CA ALTURAS", "KS11", "S11", "None", "41.30N", "120.31W", "1341", "US"],
  ["CA BODEGA BAY", "K92Q", "92Q", "None", "38.19N", "123.03W", "3", "US"],
  ["CA CROWS LANDING", "KNRC", "NRC", "None", "37.24N", "121.06W", "50", "US"],
  ["CA CUDDLEBACK GUN R", "None", "4CB", "74618", "35.16N", "117.26W", "864", "US"],
  ["CA EL TORO MCAS", "KNZJ", "NZJ", "69014", "33.40N", "117.43W", "117", "US"],
  ["CA FORT ORD/FRITZSC", "KOAR", "OAR", "None", "36.40N", "121.46W", "41", "US"],
  ["CA MONTAGUE/YREKA", "K1O5", "1O5", "None", "41.44N", "122.32W", "771", "US"],
  ["CA OCEANSIDE", "KL32", "L32", "None", "33.13N", "117.21W", "8", "US"],
  ["CA PILAR POINT AFS", "K53Q", "53Q", "72392", "37.30N", "122.30W", "49", "US"],
  ["CA POINT ARGUELLO", "None", "None", "None", "34.57N", "121.52W", "23", "US"],
  ["CA POINT ARGUELLO", "KPGU", "PGU", "99421", "34.34N", "120.21W", "12", "US"],
  ["CA POINT ARENA", "KPAA", "PAA", "72499", "38.57N", "123.16W", "18", "US"],
  ["CA POINT ARENA", "None", "None", "99412", "38.57N", "123.16W", "17", "US"],
  ["CA ROMONA", "KL39", "L39", "None", "33.02N", "116.55W", "427", "US"],
  ["CA RANCHO MURIETA", "KRIU", "RIU", "None", "38.29N", "121.06W", "45", "US"],
  ["CA SALTON SEA", "None", "None", "74718", "34.05N", "118.02W", "1", "US"],
  ["CA SUPERIOR VALLEY", "K4SU", "4SU", "74619", "35.20N", "117.06W", "962", "US"],
  ["CA TUSTIN MCAS", "KNTK", "NTK", "69016", "33.42N", "117.49W", "17", "US"],
  ["CA VACAVILLE", "KO45", "O45", "None", "38.23N", "121.57W", "33", "US"],
  ["CA MARCH AFB/88D", "KRIX", "RIX", "None", "33.33N", "117.26W", "468", "US"],
  ["CO DENVER (DIA)", "KDEN", "DEN", "72565", "39.51N", "104.39W", "1640", "US"],
  ["CO AKRON", "KAKO", "AKO", "None", "40.10N", "103.13W", "1421", "US"],
  ["CO ALAMOSA", "KALS", "ALS", "72462", "37.26N", "105.52W", "2299", "US"],
  ["CO ASPEN", "KASE", "ASE", "None", "39.14N", "106.52W", "2354", "US"],
  ["CO BERTHOUD PASS", "K0CO", "0CO", "None", "39.48N", "105.46W", "3807", "US"],
  ["CO BOULDER DEN/WFO", "KBOU", "BOU", "None", "40.00N", "105.20W", "1625", "US"],
  ["CO BROOMFIELD/JEFFC", "KBJC", "BJC", "None", "39.54N", "105.06W", "1724", "US"],
  ["CO BUCKLEY ANGB/DEN", "KBKF", "BKF", "None", "39.43N", "104.45W", "1726", "US"],
  ["CO BURLINGTON", "KITR", "ITR", "None", "39.14N", "102.17W", "1279", "US"],
  ["CO CANON CITY", "K1V6", "1V6", "None", "38.26N", "105.06W", "1658", "US"],
  ["CO CHEYENNE MTN", "KCWN", "CWN", "None", "38.45N", "104.51W", "2040", "US"],
  ["CO COLORADO SPRINGS", "KCOS", "COS", "72466", "38.49N", "104.41W", "1856", "US"],
  ["CO CO SPNGS MEADOW", "KFLY", "FLY", "None", "38.57N", "104.34W", "2096", "US"],
  ["CO CORTEZ", "KCEZ", "CEZ", "None", "37.18N", "108.38W", "1797", "US"],
  ["CO CRAIG", "KCAG", "CAG", "72570", "40.30N", "107.31W", "1887", "US"],
  ["CO DEL NORTE", "KRCV", "RCV", "None", "37.43N", "106.21W", "2425", "US"],
  ["CO DENVER/ARAPAHOE", "KAPA", "APA", "None", "39.34N", "104.51W", "1775", "US"],
  ["CO DENVER F. RANGE", "KFTG", "FTG", "None", "39.47N", "104.33W", "1675", "US"],
  ["CO DENVER/ARTCC", "KZDV", "ZDV", "None", "40.11N", "105.08W", "1498", "US"],
  ["CO DENVER/STAPLETON", "KDNR", "DNR", "72469", "39.45N", "104.52W", "1608", "US"],
  ["CO DOVE CREEK", "KDVC", "DVC", "None", "37.48N", "108.55W", "2131", "US"],
  ["CO DURANGO", "KDRO", "DRO", "None", "37.09N", "107.46W", "2035", "US"],
  ["CO EAGLE CO. REGION", "KEGE", "EGE", "None", "39.38N", "106.55W", "1993", "US"],
  ["CO RED TABLE VOR", "KDBL", "DBL", "None", "39.26N", "106.54W", "3584", "US"],
  ["CO FORT CARSON", "KFCS", "FCS", "72468", "38.40N", "104.46W", "1789", "US"],
  ["CO FT COLLINS/LOVEL", "KFNL", "FNL", "None", "40.27N", "105.01W", "1529", "US"]]

/-- `STATIONS` (database/stations.py 617-716). -/
noncomputable def stations06 : List StationRow := rows! [
  ["CO GRANADA PROFILER", "None", "GDA", "74530", "37.46N", "102.10W", "1155", "US"],
  ["CO GRAND JUNCTION", "KGJT", "GJT", "72476", "39.07N", "108.31W", "1475", "US"],
  ["CO GRAND JUNCTION", "KJNC", "JNC", "None", "39.04N", "108.48W", "2367", "US"],
  ["CO GRAND JUNC/MESA", "KGJX", "GJX", "None", "39.04N", "108.13W", "3045", "US"],
  ["CO GREELEY/WELD", "KGXY", "GXY", "None", "40.25N", "104.37W", "1420", "US"],
  ["CO GUNNISON", "KGUC", "GUC", "None", "38.31N", "106.55W", "2339", "US"],
  ["CO GUNNISON(VOR)", "KHBU", "HBU", "None", "38.27N", "107.02W", "2339", "US"],
  ["CO HAYDEN VOR", "KCHE", "CHE", "None", "40.29N", "107.13W", "2339", "US"],
  ["CO HAYDEN/YAMPA", "KHDN", "HDN", "72571", "40.28N", "107.13W", "2012", "US"],
  ["CO LA JUNTA", "KLHX", "LHX", "None", "38.03N", "103.31W", "1277", "US"],
  ["CO LAMAR", "KLAA", "LAA", "72463", "38.04N", "102.41W", "1119", "US"],
  ["CO LEADVILLE", "KLXV", "LXV", "72467", "39.14N", "106.19W", "3028", "US"],
  ["CO LIMON", "KLIC", "LIC", "None", "39.16N", "103.40W", "1630", "US"],
  ["CO MEEKER", "KEEO", "EEO", "None", "40.03N", "107.53W", "1930", "US"],
  ["CO MONTROSE", "KMTJ", "MTJ", "None", "38.30N", "107.54W", "1750", "US"],
  ["CO NUCLA/HOPKINS F", "KAIB", "AIB", "None", "38.14N", "108.34W", "1811", "US"],
  ["CO PETERSON AFB", "KPEF", "PEF", "None", "38.47N", "104.43W", "1881", "US"],
  ["CO PLATTEVILLE PROF", "None", "PLT", "74533", "40.10N", "104.42W", "1524", "US"],
  ["CO PUEBLO CTY 88D", "KPUX", "PUX", "None", "38.28N", "104.11W", "1600", "US"],
  ["CO PUEBLO", "KPUB", "PUB", "72464", "38.17N", "104.30W", "1420", "US"],
  ["CO RIFLE", "KRIL", "RIL", "None", "39.32N", "107.44W", "1678", "US"],
  ["CO SAGUACHE MUNI", "K04V", "04V", "None", "38.06N", "106.10W", "2385", "US"],
  ["CO SCHRIEVER AFB", "KSHM", "SHM", "None", "38.48N", "104.31W", "1900", "US"],
  ["CO SPRINGFIELD", "KSPD", "SPD", "None", "37.17N", "102.37W", "1335", "US"],
  ["CO STEAMBOAT SPRING", "KSBS", "SBS", "None", "40.31N", "106.52W", "2096", "US"],
  ["CO MT WERNER SBS", "K3MW", "3MW", "None", "40.27N", "106.45W", "3241", "US"],
  ["CO TELLURIDE REGION", "KTEX", "TEX", "None", "37.57N", "107.54W", "2769", "US"],
  ["CO TOBE/VOR", "KTBE", "TBE", "None", "37.16N", "103.36W", "1747", "US"],
  ["CO TRINIDAD/ANIMAS", "KTAD", "TAD", "None", "37.16N", "104.20W", "1756", "US"],
  ["CO USAF ACADEMY/COS", "KAFF", "AFF", "74531", "38.58N", "104.49W", "2003", "US"],
  ["CO WALTON PEAK", "KC07", "C07", "None", "40.21N", "106.42W", "3225", "US"],
  ["CO DURANGO(AWRS)", "K4V5", "4V5", "None", "37.17N", "107.52W", "2012", "US"],
  ["CO FORT COLLINS", "KFCL", "FCL", "None", "40.35N", "105.05W", "1525", "US"],
  ["CO FRASER", "K4FC", "4FC", "None", "39.57N", "105.50W", "2609", "US"],
  ["CO GUNNISON/AWRS", "K2V9", "2V9", "None", "38.36N", "106.55W", "2349", "US"],
  ["CO LAMAR", "K4LJ", "4LJ", "None", "38.05N", "102.37W", "1103", "US"],
  ["CO SALIDA", "KS29", "S29", "None", "38.31N", "106.01W", "2282", "US"],
  ["CO WINTER PARK", "KC96", "C96", "None", "40.00N", "105.52W", "2740", "US"],
  ["CO YUMA", "K2V6", "2V6", "None", "40.06N", "102.43W", "1261", "US"],
  ["CO YUMA", "KYMA", "None", "None", "40.06N", "102.43W", "1261", "US"],
  ["CO FLAGLER", "KFLA", "None", "None", "39.17N", "103.04W", "1507", "US"],
  ["CO KIRK", "K72C", "None", "None", "39.36N", "102.34W", "1280", "US"],
  ["CO STERLING", "KSTK", "None", "None", "40.37N", "103.16W", "1231", "US"],
  ["CO STRATTON", "KSTR", "None", "None", "39.18N", "102.36W", "1345", "US"],
  ["CO RED CLIFF PASS", "KCCU", "None", "None", "39.29N", "106.09W", "3680", "US"],
  ["CO RANGELY", "K4V0", "None", "None", "40.06N", "108.46W", "1608", "US"],
  ["CO BUENA VISTA", "KAEJ", "None", "None", "38.49N", "106.07W", "2422", "US"],
  ["CO DELTA/BLAKE FLD", "KAJZ", "None", "None", "38.47N", "108.04W", "1583", "US"],
  ["CO SALIDA", "KANK", "None", "None", "38.32N", "106.03W", "2293", "US"],
  ["CO BOULDER MUNI", "KBDU", "None", "None", "40.02N", "105.14W", "1612", "US"],
  ["CO ELLICOTT-B AFA", "KABH", "None", "None", "38.46N", "104.18W", "1840", "US"],
  ["CO ERIE MUNI", "KEIK", "None", "None", "40.01N", "105.03W", "1564", "US"],
  ["CO FORT MORGAN", "KFMM", "None", "None", "40.20N", "103.48W", "1393", "US"],
  ["CO GRANBY/GRAND CO", "KGNB", "None", "None", "40.05N", "105.55W", "2500", "US"],
  ["CO HOLYOKE", "KHEQ", "None", "None", "40.34N", "102.17W", "1137", "US"],
  ["CO LONGMONT/VBRAND", "KLMO", "None", "None", "40.10N", "105.10W", "1541", "US"],
  ["CO PAGOSA SPRINGS", "KPSO", "None", "None", "37.17N", "107.03W", "2334", "US"],
  ["CO WOLF CREEK PASS", "KCPW", "None", "None", "37.27N", "106.48W", "3584", "US"],
  ["CO CORONA PASS", "KCRV", "None", "None", "40.03N", "105.35W", "3538", "US"],
  ["CO MONUMENT/ELBERT", "KMNH", "None", "None", "39.13N", "104.39W", "2152", "US"],
  ["CO MONARCH PASS", "KMYP", "None", "None", "38.29N", "106.19W", "3667", "US"],
  ["CO LA VETA PASS", "KVTP", "None", "None", "37.30N", "105.10W", "3114", "US"],
  ["CO WALDEN", "K33V", "None", "None", "40.45N", "106.17W", "2484", "US"],
  ["CO KREMMLING AWOS", "K20V", "None", "None", "40.03N", "106.22W", "2259", "US"],
  ["CO WILKERSON PASS", "K4BM", "None", "None", "39.03N", "105.31W", "3438", "US"],
  ["CO SUNLIGHT", "K5SM", "None", "None", "39.26N", "107.23W", "3232", "US"],
  ["CO COTTONWOOD PASS", "K7BM", "None", "None", "38.47N", "106.13W", "2995", "US"],
  ["CO WRAY", "K2V5", "None", "None", "40.06N", "102.15W", "1118", "US"],
  ["CT BRIDGEPORT", "KBDR", "BDR", "72504", "41.10N", "073.08W", "7", "US"],
  ["CT CHESTER", "KSNC", "SNC", "None", "41.23N", "072.30W", "127", "US"],
  ["CT DANBURY", "KDXR", "DXR", "None", "41.22N", "073.29W", "139", "US"],
  ["CT GROTON/NEW LONDO", "KGON", "GON", "None", "41.20N", "072.03W", "3", "US"],
  ["CT HARTFORD/BRAINAR", "KHFD", "HFD", "None", "41.44N", "072.39W", "4", "US"],
  ["CT MERIDEN", "KMMK", "MMK", "None", "41.31N", "072.50W", "31", "US"],
  ["CT NEW HAVEN/TWEED", "KHVN", "HVN", "None", "41.16N", "072.52W", "4", "US"],
  ["CT OXFORD/WATERBURY", "KOXC", "OXC", "None", "41.28N", "073.08W", "222", "US"],
  ["CT WILLIMANTIC", "KIJD", "IJD", "None", "41.45N", "072.11W", "75", "US"],
  ["CT WINDSOR LOCKS", "KBDL", "BDL", "72508", "41.56N", "072.41W", "60", "US"],
  ["CT MANSFIELD", "K5B0", "5B0", "None", "41.45N", "072.10W", "76", "US"],
  ["CT PUTNAM", "K5B3", "5B3", "None", "41.04N", "073.37W", "91", "US"],
  ["DE DOVER AFB", "KDOV", "DOV", "None", "39.07N", "075.28W", "9", "US"],
  ["DE DOVER/ELLENDALE", "KDOX", "DOX", "None", "38.50N", "075.26W", "15", "US"],
  ["DE GEORGETOWN", "KGED", "GED", "None", "38.41N", "075.22W", "19", "US"],
  ["DE WILMINGTON", "KILG", "ILG", "None", "39.40N", "075.36W", "28", "US"],
  ["FL APALACHICOLA", "KAAF", "AAF", "72220", "29.44N", "085.02W", "5", "US"],
  ["FL BARTOW MUNICIPAL", "KBOW", "BOW", "None", "27.56N", "081.46W", "39", "US"],
  ["FL BOCA RATON", "KBCT", "BCT", "None", "26.23N", "080.06W", "4", "US"],
  ["FL BONIFAY TRI-CTY", "K1J0", "1J0", "None", "30.51N", "085.36W", "26", "US"],
  ["FL BROOKSVILLE", "KBKV", "BKV", "None", "28.28N", "082.27W", "20", "US"],
  ["FL CAPE CANAVERAL", "KXMR", "XMR", "74794", "28.28N", "080.34W", "3", "US"],
  ["FL CECIL FIELD NAS", "KNZC", "NZC", "None", "30.13N", "081.52W", "25", "US"],
  ["FL CLEARWATER", "KCLW", "CLW", "None", "27.59N", "082.46W", "22", "US"],
  ["FL CRESTVIEW", "KCEW", "CEW", "None", "30.47N", "086.31W", "55", "US"],
  ["FL CROSS CITY", "KCTY", "CTY", "72212", "29.38N", "083.06W", "13", "US"],
  ["FL CRYSTAL RIVER", "KCGC", "CGC", "None", "28.52N", "082.34W", "3", "US"],
  ["FL DAYTONA BEACH", "KDAB", "DAB", "None", "29.11N", "081.04W", "9", "US"],
  ["FL DE FUNIAK SPRNGS", "K54J", "54J", "None", "30.44N", "086.09W", "88", "US"],
  ["FL DELAND", "KDED", "DED", "None", "29.04N", "081.17W", "24", "US"],
  ["FL DESTIN", "KDTS", "DTS", "None", "30.24N", "086.28W", "5", "US"],
  ["FL DUKE FLD/EGLIN", "KEGI", "EGI", "74778", "30.38N", "086.31W", "59", "US"]]

/-- `STATIONS` (database/stations.py 717-816). -/
noncomputable def stations07 : List StationRow := rows! [
  ["FL EGLIN AFB/88D", "KEVX", "EVX", "None", "30.34N", "085.55W", "43", "US"],
  ["FL EGLIN AFB/VALPAR", "KVPS", "VPS", "72221", "30.28N", "086.31W", "26", "US"],
  ["FL EVERGLADES CITY", "KEGC", "EGC", "None", "25.51N", "081.23W", "2", "US"],
  ["FL FERNANDINA BEACH", "KFHB", "FHB", "None", "30.37N", "081.28W", "5", "US"],
  ["FL FLAMINGO/MONROE", "KFLM", "FLM", "None", "25.08N", "080.55W", "2", "US"],
  ["FL FT LAUDERD/HOLLY", "KFLL", "FLL", "None", "26.04N", "080.09W", "3", "US"],
  ["FL FT LAUDERD/EXEC", "KFXE", "FXE", "None", "26.12N", "080.11W", "6", "US"],
  ["FL FORT MYERS", "KRSW", "RSW", "None", "26.32N", "081.45W", "10", "US"],
  ["FL FORT MYERS", "KFMY", "FMY", "None", "26.35N", "081.52W", "4", "US"],
  ["FL FORT PIERCE", "KFPR", "FPR", "None", "27.30N", "080.23W", "13", "US"],
  ["FL GAINESVILLE", "KGNV", "GNV", "None", "29.42N", "082.17W", "45", "US"],
  ["FL HOLLYWOOD", "KHWO", "HWO", "None", "26.00N", "080.14W", "2", "US"],
  ["FL HOMESTEAD AFB", "KHST", "HST", "None", "25.28N", "080.22W", "2", "US"],
  ["FL HURLBURT FIELD", "KHRT", "HRT", "74777", "30.25N", "086.40W", "12", "US"],
  ["FL IMMOKALEE", "KIMM", "IMM", "None", "26.26N", "081.24W", "12", "US"],
  ["FL INVERNESS", "KINF", "INF", "None", "28.48N", "082.19W", "15", "US"],
  ["FL JACKSONVIL/CRAIG", "KCRG", "CRG", "None", "30.20N", "081.31W", "13", "US"],
  ["FL JACKSONVILLE NAS", "KNIP", "NIP", "None", "30.13N", "081.40W", "7", "US"],
  ["FL JACKSONVILLE", "KJAX", "JAX", "72206", "30.30N", "081.41W", "10", "US"],
  ["FL JACKSONVIL/ARTCC", "KZJX", "ZJX", "None", "30.41N", "081.54W", "2", "US"],
  ["FL JACKSONVIL/CECIL", "KVQQ", "VQQ", "None", "30.13N", "081.53W", "25", "US"],
  ["FL JACKSONVIL/NAVAL", "KNEN", "NEN", "None", "30.21N", "081.53W", "30", "US"],
  ["FL KEYSTONE HEIGHTS", "K42J", "42J", "None", "29.51N", "082.03W", "60", "US"],
  ["FL KEY WEST NAS", "KNQX", "NQX", "None", "24.34N", "081.40W", "2", "US"],
  ["FL KEY WEST", "KEYW", "EYW", "72201", "24.33N", "081.45W", "5", "US"],
  ["FL KEY WEST", "KKEY", "KEY", "None", "24.33N", "081.47W", "5", "US"],
  ["FL KEY W/BOCA CHICA", "KBYX", "BYX", "None", "24.36N", "081.42W", "2", "US"],
  ["FL KISSIMMEE/ORLAND", "KISM", "ISM", "None", "28.17N", "081.26W", "25", "US"],
  ["FL LA BELLE", "KX14", "X14", "None", "26.44N", "081.26W", "6", "US"],
  ["FL LAKE CITY", "KLCQ", "LCQ", "None", "30.10N", "082.35W", "62", "US"],
  ["FL LAKELAND REGIONA", "KLAL", "LAL", "None", "27.58N", "082.01W", "43", "US"],
  ["FL LEESBURG", "KLEE", "LEE", "None", "28.49N", "081.49W", "23", "US"],
  ["FL LIVE OAK", "K24J", "24J", "None", "30.18N", "083.01W", "32", "US"],
  ["FL MACDILL AFB/TAMP", "KMCF", "MCF", "74788", "27.51N", "082.31W", "4", "US"],
  ["FL MARATHON", "KMTH", "MTH", "None", "24.44N", "081.03W", "2", "US"],
  ["FL MARCO ISLAND", "KMKY", "MKY", "None", "26.00N", "081.40W", "2", "US"],
  ["FL MARIANNA", "KMAI", "MAI", "None", "30.50N", "085.11W", "32", "US"],
  ["FL MAYPORT NAS", "KNRB", "NRB", "None", "30.23N", "081.25W", "5", "US"],
  ["FL MELBOURNE", "KMLB", "MLB", "72204", "28.06N", "080.39W", "11", "US"],
  ["FL MERRITT ISLAND", "KCOI", "COI", "None", "28.20N", "080.41W", "2", "US"],
  ["FL MIAMI/88D", "KAMX", "AMX", "None", "25.37N", "080.25W", "4", "US"],
  ["FL MIAMI/WFO", "KMFL", "MFL", "72202", "25.45N", "080.22W", "5", "US"],
  ["FL MIAMI/TAMIAMI", "KTMB", "TMB", "None", "25.39N", "080.26W", "2", "US"],
  ["FL MIAMI", "KMIA", "MIA", "None", "25.48N", "080.17W", "3", "US"],
  ["FL MIAMI/ARTCC", "KZMA", "ZMA", "None", "25.46N", "080.11W", "3", "US"],
  ["FL MIAMI/OPA LOCKA", "KOPF", "OPF", "None", "25.55N", "080.17W", "16", "US"],
  ["FL MIAMI BEACH", "KMBF", "MBF", "None", "25.46N", "080.08W", "1", "US"],
  ["FL MILTON/WHITING S", "KNDZ", "NDZ", "None", "30.42N", "087.01W", "54", "US"],
  ["FL NAPLES MUNICIPAL", "KAPF", "APF", "None", "26.09N", "081.46W", "3", "US"],
  ["FL NASA SHUTTLE FCL", "KTTS", "TTS", "None", "28.37N", "080.43W", "3", "US"],
  ["FL NATL HURR CENTER", "KNHC", "NHC", "None", "25.44N", "080.16W", "3", "US"],
  ["FL NEW PORT RICHEY", "KRRF", "RRF", "None", "28.11N", "082.38W", "12", "US"],
  ["FL NEW SMYRNA BEACH", "KEVB", "EVB", "None", "29.03N", "080.57W", "3", "US"],
  ["FL OCALA MUNI", "KOCF", "OCF", "None", "29.10N", "082.13W", "27", "US"],
  ["FL OCEAN REEF", "KOCR", "OCR", "None", "25.18N", "080.16W", "2", "US"],
  ["FL OKEECHOBEE CTY", "KOBE", "OBE", "None", "27.16N", "080.51W", "11", "US"],
  ["FL ORLANDO", "KMCO", "MCO", "72205", "28.25N", "081.20W", "29", "US"],
  ["FL ORLANDO", "KORL", "ORL", "None", "28.33N", "081.20W", "37", "US"],
  ["FL ORMOND BEACH VOR", "KOMN", "OMN", "None", "29.18N", "081.07W", "9", "US"],
  ["FL PALATKA", "K28J", "28J", "None", "29.40N", "081.41W", "15", "US"],
  ["FL PALM COAST", "KFIN", "FIN", "None", "29.28N", "081.13W", "10", "US"],
  ["FL PANAMA CITY", "KECP", "ECP", "None", "30.21N", "085.48W", "21", "US"],
  ["FL PATRICK AFB/COCO", "KCOF", "COF", "74795", "28.14N", "080.36W", "3", "US"],
  ["FL PENSACOLA", "KPNS", "PNS", "72222", "30.29N", "087.11W", "38", "US"],
  ["FL PENSACOLA NAS", "KNPA", "NPA", "None", "30.21N", "087.19W", "9", "US"],
  ["FL PERRY FOLEY", "K40J", "40J", "None", "30.04N", "083.34W", "13", "US"],
  ["FL PLANT CITY MUNI", "KPCM", "PCM", "None", "28.00N", "082.10W", "47", "US"],
  ["FL POMPANO BEACH", "KPMP", "PMP", "None", "26.15N", "080.07W", "6", "US"],
  ["FL PORT RICHEY", "KX41", "X41", "None", "28.21N", "082.37W", "12", "US"],
  ["FL PUNTA GORDA", "KPGD", "PGD", "None", "26.55N", "082.00W", "7", "US"],
  ["FL QUINCY", "K2J9", "2J9", "None", "30.36N", "084.33W", "69", "US"],
  ["FL SANFORD/ORLANDO", "KSFB", "SFB", "None", "28.46N", "081.13W", "17", "US"],
  ["FL SARASOTA/BRADENT", "KSRQ", "SRQ", "None", "27.24N", "082.34W", "18", "US"],
  ["FL SEBASTIAN", "KX26", "X26", "None", "27.49N", "080.30W", "6", "US"],
  ["FL SEBRING", "KSEF", "SEF", "None", "27.27N", "081.21W", "19", "US"],
  ["FL ST AUGUSTINE", "KSGJ", "SGJ", "99441", "29.58N", "081.19W", "3", "US"],
  ["FL ST PETERSBURG", "KPIE", "PIE", "None", "27.55N", "082.41W", "4", "US"],
  ["FL ST PETERS/ALBERT", "KSPG", "SPG", "None", "27.46N", "082.38W", "2", "US"],
  ["FL STUART/WITHAM", "KSUA", "SUA", "None", "27.11N", "080.13W", "6", "US"],
  ["FL TALLAHASSEE", "KTLH", "TLH", "72214", "30.24N", "084.21W", "19", "US"],
  ["FL TALLAHASSEE/WFO", "KTAE", "TAE", "None", "30.24N", "084.20W", "16", "US"],
  ["FL TAMPA", "KTPA", "TPA", "72211", "27.58N", "082.32W", "11", "US"],
  ["FL TAMPA/O KNIGHT", "KTPF", "TPF", "None", "27.55N", "082.27W", "3", "US"],
  ["FL TAMPA BAY/RUSKIN", "KTBW", "TBW", "72210", "27.42N", "082.24W", "12", "US"],
  ["FL TAMPA/VANDENBURG", "KVDF", "VDF", "None", "28.01N", "082.20W", "7", "US"],
  ["FL TITUSVILLE", "KTIX", "TIX", "None", "28.30N", "080.48W", "11", "US"],
  ["FL TYNDALL AFB", "KPAM", "PAM", "74775", "30.04N", "085.34W", "5", "US"],
  ["FL TYNDALL DRONE", "KTDR", "TDR", "None", "30.03N", "085.31W", "5", "US"],
  ["FL VENICE", "KVNC", "VNC", "None", "27.04N", "082.26W", "6", "US"],
  ["FL VERO BEACH", "KVRB", "VRB", "None", "27.39N", "080.25W", "10", "US"],
  ["FL VERO BEACH", "KTRV", "TRV", "None", "27.39N", "080.25W", "10", "US"],
  ["FL THE VILLAGES", "KVVG", "VVG", "None", "28.57N", "081.58W", "27", "US"],
  ["FL WEST PALM BEACH", "KPBI", "PBI", "72203", "26.41N", "080.06W", "6", "US"],
  ["FL WHITING FLD NAS", "KNSE", "NSE", "None", "30.44N", "087.01W", "61", "US"],
  ["FL WILLISTON", "KX60", "X60", "None", "29.21N", "082.28W", "23", "US"],
  ["FL WINTER HAVEN", "KGIF", "GIF", "None", "28.04N", "081.45W", "43", "US"],
  ["FL ZEPHYRHILLS", "KZPH", "None", "None", "28.14N", "082.09W", "26", "US"],
  ["FL ALLIGATOR REEF", "None", "None", "99431", "24.51N", "080.22W", "1", "US"],
  ["FL APALACHICOLA", "KAQQ", "AQQ", "None", "29.44N", "085.02W", "5", "US"],
  ["FL ASTOR", "K90J", "90J", "None", "29.07N", "081.34W", "33", "US"]]

/-- `STATIONS` (database/stations.py 817-916). -/
noncomputable def stations08 : List StationRow := rows! [
  ["FL AVON PARK", "KAGR", "AGR", "74796", "27.39N", "081.20W", "20", "US"],
  ["FL CAPE SAN BLAS", "None", "None", "72224", "29.41N", "085.21W", "1", "US"],
  ["FL CAPE SAN BLAS", "None", "None", "99436", "29.40N", "085.37W", "2", "US"],
  ["FL DEERFIELD BEACH", "None", "None", "99417", "26.19N", "080.55W", "2", "US"],
  ["FL EGLIN AFB", "None", "2EG", "None", "30.34N", "086.19W", "48", "US"],
  ["FL INVERNESS", "KX40", "X40", "None", "28.48N", "082.19W", "15", "US"],
  ["FL LAKE WORTH", "None", "None", "99405", "26.37N", "080.58W", "5", "US"],
  ["FL MOLASSES REEF", "None", "None", "99443", "25.01N", "080.37W", "1", "US"],
  ["FL PALM COAST", "KXFL", "XFL", "None", "29.28N", "081.13W", "10", "US"],
  ["FL PANAMA CITY", "KPFN", "PFN", "None", "30.12N", "085.41W", "12", "US"],
  ["FL SETTLEMENT POIN", "None", "None", "99439", "26.40N", "079.00W", "2", "US"],
  ["FL SOMBRERO KEY", "None", "None", "99445", "24.37N", "081.52W", "1", "US"],
  ["FL ST JOHNS LIGHT", "None", "None", "99415", "30.22N", "081.36W", "5", "US"],
  ["FL VENICE PIER", "None", "None", "99422", "27.04N", "082.33W", "4", "US"],
  ["FL HURLBERT", "KQHY", "None", "None", "30.24N", "086.39W", "8", "US"],
  ["FL HURLBERT", "KQBL", "None", "None", "30.24N", "086.39W", "6", "US"],
  ["GA ALBANY", "KABY", "ABY", "72216", "31.32N", "084.12W", "58", "US"],
  ["GA AMERICUS", "KACJ", "ACJ", "None", "32.07N", "084.11W", "143", "US"],
  ["GA PECAN (ALBANY)", "KPZD", "PZD", "None", "31.39N", "084.18W", "85", "US"],
  ["GA ALMA", "KAMG", "AMG", "None", "31.32N", "082.30W", "59", "US"],
  ["GA ATHENS", "KAHN", "AHN", "72311", "33.57N", "083.20W", "244", "US"],
  ["GA ATLANTA", "KATL", "ATL", "72219", "33.38N", "084.27W", "296", "US"],
  ["GA ATLANTA/FULTON", "KFTY", "FTY", "None", "33.47N", "084.31W", "263", "US"],
  ["GA ATLANTA/PAULDING", "KPUJ", "PUJ", "None", "33.55N", "084.56W", "393", "US"],
  ["GA ATLANTA/RFC", "KATR", "ATR", "None", "33.22N", "084.34W", "312", "US"],
  ["GA ATLANTA/ARTCC", "KZTL", "ZTL", "None", "33.23N", "084.20W", "312", "US"],
  ["GA GRIFFIN-SPALDING", "K6A2", "6A2", "None", "33.14N", "084.16W", "292", "US"],
  ["GA AUGUSTA/DANIEL", "KDNL", "DNL", "None", "33.28N", "082.02W", "130", "US"],
  ["GA AUGUSTA/BUSH", "KAGS", "AGS", "72218", "33.22N", "081.58W", "44", "US"],
  ["GA BAINBRIDGE", "KBGE", "BGE", "None", "30.58N", "084.38W", "43", "US"],
  ["GA BAXLEY", "KBHC", "BHC", "None", "31.43N", "082.24W", "62", "US"],
  ["GA BLAIRSVILLE", "KDZJ", "DZJ", "None", "34.51N", "084.00W", "582", "US"],
  ["GA BLAKELY EARLY C", "KBIJ", "BIJ", "None", "31.24N", "084.54W", "65", "US"],
  ["GA BRUNSWICK", "KSSI", "SSI", "None", "31.09N", "081.23W", "6", "US"],
  ["GA BRUNSWICK/GLYNCO", "KBQK", "BQK", "None", "31.15N", "081.28W", "8", "US"],
  ["GA BUTLER", "K6A1", "6A1", "None", "32.34N", "084.15W", "203", "US"],
  ["GA CALHOUN", "KCZL", "CZL", "None", "34.27N", "084.56W", "200", "US"],
  ["GA CAMILLA", "KCXU", "CXU", "None", "31.13N", "084.14W", "54", "US"],
  ["GA CANON/FRANKLIN", "K18A", "18A", "None", "34.21N", "083.08W", "271", "US"],
  ["GA CANTON/CHEROKEE", "KCNI", "CNI", "None", "34.19N", "084.25W", "372", "US"],
  ["GA CARROLLTON/GRAY", "KCTJ", "CTJ", "None", "33.38N", "085.09W", "354", "US"],
  ["GA CARTERSVILLE", "KVPC", "VPC", "None", "34.08N", "084.51W", "222", "US"],
  ["GA CLAXTON/EVANS CO", "KCWV", "CWV", "None", "32.12N", "081.52W", "33", "US"],
  ["GA COLUMBUS", "KCSG", "CSG", "None", "32.31N", "084.57W", "135", "US"],
  ["GA CORDELE", "KCKF", "CKF", "None", "31.59N", "083.46W", "91", "US"],
  ["GA CORNELIA", "KAJR", "AJR", "None", "34.30N", "083.33W", "442", "US"],
  ["GA COVINGTON", "KCVC", "CVC", "None", "33.38N", "083.51W", "247", "US"],
  ["GA DALTON", "KDNN", "DNN", "None", "34.43N", "084.52W", "216", "US"],
  ["GA DOBBINS AFB/MARI", "KMGE", "MGE", "72227", "33.55N", "084.31W", "326", "US"],
  ["GA DOUGLAS MUNI", "KDQH", "DQH", "None", "31.29N", "082.52W", "78", "US"],
  ["GA DUBLIN", "KDBN", "DBN", "None", "32.34N", "082.59W", "94", "US"],
  ["GA EASTMAN", "KEZM", "EZM", "None", "32.13N", "083.08W", "93", "US"],
  ["GA ELBERTON PATZ F", "KEBA", "EBA", "None", "34.06N", "082.49W", "184", "US"],
  ["GA ELLIJAY", "K49A", "49A", "None", "34.38N", "084.32W", "453", "US"],
  ["GA FITZGERALD", "KFZG", "FZG", "None", "31.41N", "083.16W", "111", "US"],
  ["GA FT BENNING/COLUM", "KLSF", "LSF", "72225", "32.19N", "084.58W", "71", "US"],
  ["GA FT STEWART/WRIGH", "KLHW", "LHW", "72209", "31.52N", "081.34W", "14", "US"],
  ["GA GAINESVILLE", "KGVL", "GVL", "None", "34.16N", "083.50W", "386", "US"],
  ["GA GREENSBORO", "K3J7", "3J7", "None", "33.36N", "083.08W", "206", "US"],
  ["GA HAMPTON", "KHMP", "HMP", "None", "33.23N", "084.20W", "269", "US"],
  ["GA HAZELHURST", "KAZE", "AZE", "None", "31.53N", "082.39W", "78", "US"],
  ["GA HOMERVILLE", "KHOE", "HOE", "None", "31.03N", "082.47W", "57", "US"],
  ["GA JASPER", "KJZP", "JZP", "None", "34.27N", "084.27W", "468", "US"],
  ["GA JEFFERSON", "KJCA", "JCA", "None", "34.11N", "083.34W", "290", "US"],
  ["GA JESUP/WAYNE CTY", "KJES", "JES", "None", "31.33N", "081.53W", "33", "US"],
  ["GA LAFAYETTE", "K9A5", "9A5", "None", "34.41N", "085.17W", "323", "US"],
  ["GA LA GRANGE", "KLGC", "LGC", "None", "33.00N", "085.04W", "211", "US"],
  ["GA LAWRENCEVILLE", "KLZU", "LZU", "None", "33.59N", "083.58W", "323", "US"],
  ["GA MACON", "KMCN", "MCN", "72217", "32.41N", "083.39W", "109", "US"],
  ["GA MARIETTA MCCOLUM", "KRYY", "RYY", "None", "34.01N", "084.36W", "317", "US"],
  ["GA MCDUFFIE/THOMSON", "KHQU", "HQU", "None", "33.32N", "082.31W", "152", "US"],
  ["GA MILLEDGEVILLE", "KMLJ", "MLJ", "None", "33.09N", "083.14W", "117", "US"],
  ["GA MOODY AFB/VALDOS", "KVAD", "VAD", "74781", "30.58N", "083.12W", "71", "US"],
  ["GA MOODY AFB/88D", "KVAX", "VAX", "None", "30.53N", "083.00W", "54", "US"],
  ["GA MOULTRIE MUNI", "KMGR", "MGR", "None", "31.05N", "083.48W", "90", "US"],
  ["GA MOULTRIE/SPENCE", "KMUL", "MUL", "None", "31.08N", "083.42W", "89", "US"],
  ["GA NEWNAN", "KCCO", "CCO", "None", "33.19N", "084.46W", "296", "US"],
  ["GA PEACHTREE/DEKALB", "KPDK", "PDK", "None", "33.53N", "084.18W", "302", "US"],
  ["GA PEACHTREE CITY", "KFFC", "FFC", "72215", "33.21N", "084.34W", "262", "US"],
  ["GA PERRY", "KPXE", "PXE", "None", "32.31N", "083.46W", "128", "US"],
  ["GA PINE MOUNTAIN", "KPIM", "PIM", "None", "32.50N", "084.53W", "275", "US"],
  ["GA ATLANTA RFC", "KALR", "ALR", "None", "33.22N", "084.34W", "248", "US"],
  ["GA ROBINS AFB/88D", "KJGX", "JGX", "None", "32.41N", "083.21W", "159", "US"],
  ["GA ROME", "KRMG", "RMG", "72320", "34.21N", "085.10W", "193", "US"],
  ["GA SANDERSVILLE", "KOKZ", "OKZ", "None", "32.58N", "082.50W", "134", "US"],
  ["GA SAVANNAH", "KSAV", "SAV", "72207", "32.07N", "081.12W", "14", "US"],
  ["GA SAVANNAH/HUNTER", "KSVN", "SVN", "74780", "32.01N", "081.09W", "13", "US"],
  ["GA STATESBORO", "KTBR", "TBR", "None", "32.29N", "081.44W", "57", "US"],
  ["GA SWAINSBORO", "KSBO", "SBO", "None", "32.37N", "082.22W", "100", "US"],
  ["GA SYLVANIA", "KJYL", "JYL", "None", "32.39N", "081.36W", "57", "US"],
  ["GA TIFTON", "KTMA", "TMA", "None", "31.26N", "083.29W", "109", "US"],
  ["GA THOMASTON UPSON", "KOPN", "OPN", "None", "32.57N", "084.16W", "243", "US"],
  ["GA THOMASVILLE", "KTVI", "TVI", "None", "30.54N", "083.53W", "80", "US"],
  ["GA TOCCOA", "KTOC", "TOC", "None", "34.36N", "083.18W", "304", "US"],
  ["GA TOCCOA VOR", "KODF", "ODF", "None", "34.42N", "083.18W", "567", "US"],
  ["GA VALDOSTA REGIONA", "KVLD", "VLD", "None", "30.47N", "083.16W", "62", "US"],
  ["GA VIDALIA MUNI", "KVDI", "VDI", "None", "32.12N", "082.22W", "84", "US"],
  ["GA WARNER ROBINS AF", "KWRB", "WRB", "None", "32.37N", "083.35W", "90", "US"],
  ["GA WASHINGTON", "KIIY", "IIY", "None", "33.47N", "082.49W", "197", "US"],
  ["GA WAYCROSS/WARE CO", "KAYS", "AYS", "72213", "31.15N", "082.24W", "46", "US"]]

/-- `STATIONS` (database/stations.py 917-1016). -/
noncomputable def stations09 : List StationRow := rows! [
  ["GA WINDER/BARROW", "KWDR", "WDR", "None", "33.59N", "083.40W", "287", "US"],
  ["GA BLAKELY EARLY C", "K11J", "11J", "None", "31.24N", "084.54W", "65", "US"],
  ["GA CANTON/CHEROKEE", "K47A", "47A", "None", "34.19N", "084.25W", "372", "US"],
  ["GA COVINGTON", "K9A1", "9A1", "None", "33.38N", "083.51W", "247", "US"],
  ["GA ELBERTON PATZ F", "K27A", "27A", "None", "34.06N", "082.49W", "184", "US"],
  ["GA JEFFERSON", "K19A", "19A", "None", "34.11N", "083.34W", "290", "US"],
  ["GA SAVANNAH LIGHT", "None", "None", "99438", "31.57N", "080.19W", "1", "US"],
  ["HI BARKING SANDS/KA", "PHBK", "BKH", "91162", "22.02N", "159.47W", "8", "US"],
  ["HI BRADSHAW AAF/HAW", "PHSF", "BSF", "None", "19.46N", "155.33W", "1887", "US"],
  ["HI HANA", "PHHN", "HNM", "91199", "20.48N", "156.01W", "24", "US"],
  ["HI HICKAM AFB", "PHIK", "HIK", "None", "21.19N", "157.56W", "4", "US"],
  ["HI HICKAM AWC", "PHWR", "HWR", "None", "21.19N", "157.56W", "4", "US"],
  ["HI HILO", "PHTO", "ITO", "91285", "19.43N", "155.03W", "12", "US"],
  ["HI HONOLULU", "PHNL", "HNL", "91182", "21.20N", "157.55W", "4", "US"],
  ["HI HONOLULU/WFO", "PHFO", "HFO", "None", "21.19N", "157.55W", "4", "US"],
  ["HI HONOLULU/ARTCC", "PZHN", "ZHN", "None", "21.19N", "157.55W", "4", "US"],
  ["HI KAANAPALI", "PHKP", "HKP", "91189", "20.56N", "156.42W", "3", "US"],
  ["HI KAHULUI", "PHOG", "OGG", "91190", "20.54N", "156.26W", "12", "US"],
  ["HI KAILUA/KONA", "PHKO", "KOA", "None", "19.44N", "156.03W", "27", "US"],
  ["HI KALAUPAPA", "PHLU", "LUP", "None", "21.13N", "156.58W", "7", "US"],
  ["HI KAMUELA/WAIMEA", "PHMU", "MUE", "None", "20.00N", "155.40W", "817", "US"],
  ["HI KOHALA 88D", "PHKM", "HKM", "None", "20.08N", "155.47W", "1162", "US"],
  ["HI KANEOHE MCAS", "PHNG", "NGF", "91176", "21.26N", "157.46W", "3", "US"],
  ["HI KOKEE", "PHAC", "HAC", "91161", "22.09N", "159.39W", "1280", "US"],
  ["HI KALAELOA", "PHJR", "JRF", "91178", "21.19N", "158.04W", "15", "US"],
  ["HI LAHAINA/WEST MAU", "PHJH", "JHM", "None", "20.58N", "156.40W", "78", "US"],
  ["HI LANAI CITY AIRPO", "PHNY", "LNY", "None", "20.46N", "156.56W", "399", "US"],
  ["HI LIHUE/KAUAI IS", "PHLI", "LIH", "91165", "21.58N", "159.20W", "45", "US"],
  ["HI MOLOKAI/KUKUI", "PHMO", "HMO", "None", "21.08N", "157.11W", "415", "US"],
  ["HI MOLOKAI", "PHMK", "MKK", "91186", "21.09N", "157.06W", "141", "US"],
  ["HI NAALEHU/S HAWAII", "PHWA", "HWA", "None", "19.06N", "155.34W", "421", "US"],
  ["HI NUMILA/S KAUAI", "PHKI", "HKI", "None", "21.54N", "159.33W", "55", "US"],
  ["HI UPOLU", "PHUP", "UPP", "None", "20.16N", "155.52W", "30", "US"],
  ["HI PEARL HARBOR", "PHNC", "HNC", "None", "21.21N", "157.56W", "1", "US"],
  ["HI WHEELER AFB/OAHU", "PHHI", "HHI", "91170", "21.29N", "158.03W", "255", "US"],
  ["HI FR FRIGATE SHOAL", "None", "1Z6", "91155", "23.52N", "166.17W", "2", "US"],
  ["HI BARBERS PT NAS", "PHNA", "NAX", "None", "21.19N", "158.04W", "15", "US"],
  ["HI MIDWAY ISLAND NA", "PMDY", "MDY", "91066", "28.13N", "177.22W", "4", "US"],
  ["IA ALGONA", "KAXA", "AXA", "None", "43.04N", "094.16W", "372", "US"],
  ["IA AMES", "KAMW", "AMW", "None", "41.59N", "093.37W", "279", "US"],
  ["IA ANKENY", "KIKV", "IKV", "None", "41.41N", "093.34W", "275", "US"],
  ["IA ATLANTIC", "KAIO", "AIO", "None", "41.23N", "095.02W", "360", "US"],
  ["IA AUDUBON", "KADU", "ADU", "None", "41.42N", "094.55W", "392", "US"],
  ["IA BOONE MUNI", "KBNW", "BNW", "None", "42.02N", "093.50W", "354", "US"],
  ["IA BURLINGTON", "KBRL", "BRL", "None", "40.46N", "091.08W", "211", "US"],
  ["IA CARROLL", "KCIN", "CIN", "None", "42.02N", "094.46W", "375", "US"],
  ["IA CEDAR RAPIDS", "KCID", "CID", "72545", "41.53N", "091.43W", "264", "US"],
  ["IA CENTERVILLE MUNI", "KTVK", "TVK", "None", "40.41N", "092.54W", "314", "US"],
  ["IA CHARITON", "KCNC", "CNC", "None", "41.01N", "093.22W", "320", "US"],
  ["IA CHARLES CITY", "KCCY", "CCY", "None", "43.04N", "092.37W", "343", "US"],
  ["IA CHEROKEE", "KCKP", "CKP", "None", "42.44N", "095.33W", "374", "US"],
  ["IA CLARINDA", "KICL", "ICL", "None", "40.43N", "095.01W", "303", "US"],
  ["IA CLARION", "KCAV", "CAV", "None", "42.45N", "093.46W", "354", "US"],
  ["IA CLINTON MUNI", "KCWI", "CWI", "None", "41.49N", "090.19W", "216", "US"],
  ["IA COUNCIL BLUFFS", "KCBF", "CBF", "None", "41.16N", "095.46W", "382", "US"],
  ["IA CRESTON", "KCSQ", "CSQ", "None", "41.01N", "094.22W", "394", "US"],
  ["IA DAVENPORT/QUAD C", "KDVN", "DVN", "74455", "41.37N", "090.35W", "230", "US"],
  ["IA DECORAH", "KDEH", "DEH", "None", "43.16N", "091.43W", "353", "US"],
  ["IA DENISON", "KDNS", "DNS", "None", "41.58N", "095.22W", "388", "US"],
  ["IA DES MOINES", "KDSM", "DSM", "72546", "41.32N", "093.40W", "295", "US"],
  ["IA DUBUQUE", "KDBQ", "DBQ", "72547", "42.24N", "090.42W", "326", "US"],
  ["IA ESTHERVILLE", "KEST", "EST", "None", "43.24N", "094.45W", "401", "US"],
  ["IA FAIRFIELD", "KFFL", "FFL", "None", "41.02N", "091.58W", "244", "US"],
  ["IA FOREST CITY", "KFXY", "FXY", "None", "43.14N", "093.37W", "375", "US"],
  ["IA FORT DODGE", "KFOD", "FOD", "72549", "42.32N", "094.10W", "355", "US"],
  ["IA FORT MADISON", "KFSW", "FSW", "None", "40.40N", "091.19W", "221", "US"],
  ["IA GRINNELL REG", "KGGI", "GGI", "None", "41.43N", "092.44W", "307", "US"],
  ["IA HARLAN MUNI", "KHNR", "HNR", "None", "41.35N", "095.20W", "375", "US"],
  ["IA INDEPENDENCE", "KIIB", "IIB", "None", "42.27N", "091.57W", "298", "US"],
  ["IA IOWA CITY", "KIOW", "IOW", "None", "41.38N", "091.33W", "198", "US"],
  ["IA IOWA FALLS MUNI", "KIFA", "IFA", "None", "42.28N", "093.16W", "347", "US"],
  ["IA JOHNSTON/DESMOIN", "KDMX", "DMX", "None", "41.44N", "093.43W", "299", "US"],
  ["IA KEOKUK MUNI", "KEOK", "EOK", "None", "40.28N", "091.25W", "205", "US"],
  ["IA KNOXVILLE", "KOXV", "OXV", "None", "41.17N", "093.07W", "283", "US"],
  ["IA LAMONI", "KLWD", "LWD", "None", "40.38N", "093.54W", "346", "US"],
  ["IA LAMONI", "KLMN", "LMN", "None", "40.36N", "093.58W", "348", "US"],
  ["IA LE MARS", "KLRJ", "LRJ", "None", "42.46N", "096.12W", "365", "US"],
  ["IA MARSHALLTOWN", "KMIW", "MIW", "None", "42.07N", "092.55W", "296", "US"],
  ["IA MASON CITY", "KMCW", "MCW", "None", "43.09N", "093.20W", "369", "US"],
  ["IA MONTICELLO MUNI", "KMXO", "MXO", "None", "42.13N", "091.10W", "259", "US"],
  ["IA MT PLEASANT", "KMPZ", "MPZ", "None", "40.57N", "091.31W", "224", "US"],
  ["IA MUSCATINE", "KMUT", "MUT", "None", "41.22N", "091.09W", "167", "US"],
  ["IA NEWTON MUNI", "KTNU", "TNU", "None", "41.40N", "093.01W", "290", "US"],
  ["IA OELWEN", "KOLZ", "OLZ", "None", "42.40N", "091.58W", "328", "US"],
  ["IA ORANGE CITY", "KORC", "ORC", "None", "42.58N", "096.04W", "431", "US"],
  ["IA OSCEOLA MUNI", "KI75", "I75", "None", "41.03N", "093.41W", "339", "US"],
  ["IA OSKALOOSA MUNI", "KOOA", "OOA", "None", "41.14N", "092.30W", "256", "US"],
  ["IA OTTUMWA", "KOTM", "OTM", "None", "41.06N", "092.27W", "256", "US"],
  ["IA PELLA", "KPEA", "PEA", "None", "41.24N", "092.57W", "270", "US"],
  ["IA PERRY MUNI", "KPRO", "PRO", "None", "41.50N", "094.10W", "308", "US"],
  ["IA RED OAK", "KRDK", "RDK", "None", "41.01N", "095.16W", "318", "US"],
  ["IA SHELDON", "KSHL", "SHL", "None", "43.13N", "095.49W", "432", "US"],
  ["IA SHENANDOAH MUNI", "KSDA", "SDA", "None", "40.45N", "095.25W", "296", "US"],
  ["IA SIOUX CITY", "KSUX", "SUX", "72557", "42.23N", "096.23W", "338", "US"],
  ["IA SLATER PROFILER", "None", "SLA", "74449", "41.53N", "093.41W", "315", "US"],
  ["IA SPENCER", "KSPW", "SPW", "72650", "43.10N", "095.13W", "403", "US"],
  ["IA STORM LAKE", "KSLB", "SLB", "None", "42.36N", "095.13W", "454", "US"],
  ["IA VINTON", "KVTI", "VTI", "None", "42.13N", "092.01W", "255", "US"],
  ["IA WASHINGTON", "KAWG", "AWG", "None", "41.16N", "091.40W", "230", "US"],
  ["IA WATERLOO", "KALO", "ALO", "72548", "42.33N", "092.24W", "264", "US"]]

end Verif
