import Verif.Model.Stations.Rows

/-
Rows of `STATIONS` (database/stations.py). Generated by tools/stations2lean.py.
-/

namespace Verif

/-- `STATIONS` (database/stations.py 4017-4116). -/
noncomputable def stations40 : List StationRow := rows! [
  ["BC ESTEVAN PT. (MAR", "CWEB", "WEB", "71894", "49.23N", "126.33W", "7", "CA"],
  ["BC FANNY ISLAND", "CXFA", "None", "71568", "50.27N", "126.00W", "5", "CA"],
  ["BC FORT NELSON AIRP", "CYYE", "YYE", "71945", "58.49N", "122.34W", "382", "CA"],
  ["BC FORT ST. JOHN AR", "CYXJ", "YXJ", "71943", "56.15N", "120.44W", "695", "CA"],
  ["BC GOLDEN ARPT", "CYGE", "YGE", "None", "51.18N", "116.59W", "785", "CA"],
  ["BC GREEN ISLAND (MT", "CWNJ", "None", "None", "54.34N", "130.42W", "12", "CA"],
  ["BC GREY ISLET (MAPS", "CWEK", "WEK", "71476", "54.35N", "130.42W", "8", "CA"],
  ["BC HELMCKEN ISL(MAP", "CWXM", "WXM", "71481", "50.23N", "125.52W", "19", "CA"],
  ["BC HERBERT ISL (MAP", "CWLP", "WLP", "71485", "50.56N", "127.38W", "17", "CA"],
  ["BC HOLBERG CCR", "CWXH", "WXH", "71562", "50.38N", "128.08W", "568", "CA"],
  ["BC HOLLAND ROCK(AUT", "CWHL", "WHL", "71440", "54.10N", "130.21W", "5", "CA"],
  ["BC HOPE AIRPORT (MA", "CYHE", "YHE", "71114", "49.22N", "121.30W", "39", "CA"],
  ["BC HOPE SLIDE", "CWKV", "WKV", "None", "49.16N", "121.13W", "674", "CA"],
  ["BC HORSEFLY R.71761", "CWFR", "WFR", "None", "52.16N", "121.02W", "846", "CA"],
  ["BC HOSKINS ISLET", "CWZK", "None", "71773", "52.32N", "131.33W", "8", "CA"],
  ["BC ISKUT RIVER(AUTO", "CWIO", "WIO", "None", "56.43N", "131.40W", "15", "CA"],
  ["BC IVORY ISLAND", "CWJG", "WJG", "None", "52.16N", "128.25W", "10", "CA"],
  ["BC KAMLOOPS AIRPORT", "CYKA", "YKA", "71887", "50.42N", "120.27W", "346", "CA"],
  ["BC KAMLOOPS", "CZKA", "None", "None", "50.42N", "120.26W", "345", "CA"],
  ["BC KELOWNA APT", "CYLW", "YLW", "71203", "49.57N", "119.22W", "430", "CA"],
  ["BC KELP REEFS 71036", "CWZO", "WZO", "None", "48.33N", "123.14W", "1", "CA"],
  ["BC KINDAKUN ROCKS(A", "CWQS", "WQS", "71472", "53.19N", "132.46W", "14", "CA"],
  ["BC LANGARA", "CWJU", "WJU", "71903", "54.15N", "133.04W", "41", "CA"],
  ["BC LANGARA", "CWLA", "WLA", "71899", "54.15N", "133.04W", "41", "CA"],
  ["BC LUCY ISL (LGT H)", "CWLC", "WLC", "None", "54.18N", "130.37W", "27", "CA"],
  ["BC LYTTON (READAC)", "CWLY", "WLY", "71891", "50.13N", "121.35W", "229", "CA"],
  ["BC MACKENZIE AIRPOR", "CYZY", "YZY", "71944", "55.17N", "123.07W", "690", "CA"],
  ["BC MALAHAT (AUTOB)", "CWKH", "WKH", "71774", "48.34N", "123.33W", "366", "CA"],
  ["BC MASSET", "CZMT", "None", "None", "54.02N", "132.08W", "8", "CA"],
  ["BC MCINNES ISLAND", "CWMS", "WMS", "71897", "52.16N", "128.43W", "26", "CA"],
  ["BC MERRY ISLAND", "CWMR", "WMR", "None", "49.28N", "123.55W", "8", "CA"],
  ["BC MT SICKER RADAR", "CXSI", "None", "None", "48.52N", "123.45W", "1", "CA"],
  ["BC MUNCHO LAKE", "CWWQ", "WWQ", "None", "58.56N", "125.46W", "837", "CA"],
  ["BC NAKUSP (AUTOB)", "CWNP", "WNP", "71216", "50.16N", "117.49W", "524", "CA"],
  ["BC NANAIMO AIRPORT", "CYCD", "YCD", "71890", "49.03N", "123.52W", "30", "CA"],
  ["BC NECHAKO RIVER AU", "CWNX", "WNX", "None", "53.40N", "124.49W", "715", "CA"],
  ["BC NELSON (AUTOB)", "CWNM", "WNM", "71776", "49.30N", "117.17W", "535", "CA"],
  ["BC NITINAT LAKE (MA", "CWAC", "WAC", "71483", "48.40N", "124.50W", "41", "CA"],
  ["BC NOOTKA LIGHTSTAT", "CWCV", "WCV", "None", "49.36N", "126.37W", "16", "CA"],
  ["BC OSOYOOS (AUTOB)", "CWYY", "WYY", "71215", "49.02N", "119.26W", "283", "CA"],
  ["BC P. MEADOWS CS AU", "CWMM", "WMM", "71775", "49.13N", "122.41W", "5", "CA"],
  ["BC PEMBERTON (AUTOB", "CWGP", "WGP", "71777", "50.18N", "122.44W", "204", "CA"],
  ["BC PEMBERTON (AUTOB", "CYPS", "WGE", "None", "50.18N", "122.44W", "204", "CA"],
  ["BC PENTICTON AIRPOR", "CYYF", "YYF", "71889", "49.28N", "119.35W", "344", "CA"],
  ["BC PINE ISLAND (MAP", "CWPI", "WPI", "71105", "50.59N", "127.44W", "9", "CA"],
  ["BC PORT ALBERNI (MA", "CWQC", "WQC", "71475", "49.19N", "124.56W", "53", "CA"],
  ["BC PORT HARDY AIRPO", "CYZT", "YZT", "71109", "50.40N", "127.22W", "22", "CA"],
  ["BC POWELL RIVER ARP", "CYPW", "YPW", "71208", "49.49N", "124.30W", "130", "CA"],
  ["BC PRINCE GEORGE", "CYXS", "YXS", "71908", "53.54N", "122.41W", "691", "CA"],
  ["BC PRINCE GEORGE", "CXPG", "None", "None", "53.37N", "122.57W", "1101", "CA"],
  ["BC PRINCE RUPERT AR", "CYPR", "YPR", "71898", "54.17N", "130.25W", "34", "CA"],
  ["BC PRINCETON", "CWPR", "WPR", "71032", "49.28N", "120.31W", "700", "CA"],
  ["BC PRINCETON", "CYDC", "YDC", "71886", "49.28N", "120.31W", "700", "CA"],
  ["BC PUNTZI MTN (MARS", "CWPU", "WPU", "71050", "52.07N", "124.07W", "910", "CA"],
  ["BC QUATSINO (LGT ST", "CWIF", "WIF", "None", "50.26N", "128.02W", "21", "CA"],
  ["BC QUESNEL AIRPORT", "CYQZ", "YQZ", "71103", "53.01N", "122.31W", "545", "CA"],
  ["BC RACE ROCKS AUTOB", "CWQK", "WQK", "71778", "48.18N", "123.32W", "5", "CA"],
  ["BC REVELSTOKE AIRPO", "CYRV", "YRV", "71882", "50.58N", "118.10W", "443", "CA"],
  ["BC ROSE SPIT (MAPS)", "CWRO", "WRO", "71477", "54.10N", "131.40W", "7", "CA"],
  ["BC SALMON ARM AUTOB", "CWSL", "WSL", "71218", "50.42N", "119.16W", "351", "CA"],
  ["BC SAND HEADS (LS)", "CWVF", "WVF", "None", "49.06N", "123.18W", "1", "CA"],
  ["BC SANDSPIT AIRPORT", "CYZP", "YZP", "71101", "53.15N", "131.49W", "6", "CA"],
  ["BC SARTINE ISL (MAP", "CWFG", "WFG", "71478", "50.49N", "128.54W", "111", "CA"],
  ["BC SATURNA ISL (MAP", "CWEZ", "WEZ", "71473", "48.47N", "123.03W", "7", "CA"],
  ["BC SCUDDER POINT", "CWZD", "None", "None", "52.27N", "131.14W", "5", "CA"],
  ["BC SHERINGHAM AUTOB", "CWSP", "WSP", "71780", "48.23N", "123.55W", "21", "CA"],
  ["BC SILVER STAR RADR", "CXSS", "None", "None", "50.22N", "119.04W", "1681", "CA"],
  ["BC SIKANNI CHIEF AU", "CWKS", "WKS", "None", "57.15N", "122.43W", "937", "CA"],
  ["BC SISTERS IL AUTOB", "CWGT", "None", "71781", "49.29N", "124.26W", "5", "CA"],
  ["BC SMITHERS AIRPORT", "CYYD", "YYD", "71950", "54.49N", "127.11W", "523", "CA"],
  ["BC SOLANDER ISL (MA", "CWRU", "WRU", "71479", "50.07N", "127.56W", "98", "CA"],
  ["BC SPARWOOD (AUTOB)", "CWGW", "WGW", "71782", "49.45N", "114.54W", "1137", "CA"],
  ["BC SPARWOOD/ELK VAL", "CWSW", "WSW", "None", "49.45N", "114.52W", "1138", "CA"],
  ["BC SQUAMISH (AUTOB)", "CWSK", "WSK", "71207", "49.47N", "123.10W", "60", "CA"],
  ["BC SQUAMISH (AUTOB)", "CYSE", "None", "None", "49.47N", "123.10W", "52", "CA"],
  ["BC STEWART AIRPORT", "CZST", "ZST", "71955", "55.56N", "129.59W", "7", "CA"],
  ["BC SUMMERLAND (AUTO", "CWUS", "WUS", "71768", "49.34N", "119.39W", "454", "CA"],
  ["BC TATLAYOKO LAKE", "CXTL", "None", "71028", "51.40N", "124.24W", "875", "CA"],
  ["BC TERRACE AIRPORT", "CYXT", "YXT", "71951", "54.28N", "128.34W", "217", "CA"],
  ["BC TETSA RIVER", "CWTH", "WTH", "None", "58.39N", "124.14W", "804", "CA"],
  ["BC TOFINO AIRPORT", "CYAZ", "YAZ", "71106", "49.05N", "125.46W", "24", "CA"],
  ["BC TRIPLE ISLAND (L", "CWTI", "WTI", "71100", "54.18N", "130.53W", "21", "CA"],
  ["BC VANCOUVER (AUTOB", "CWHC", "WHC", "71201", "49.17N", "123.07W", "2", "CA"],
  ["BC VANCOUVER INTL A", "CYVR", "YVR", "71892", "49.10N", "123.10W", "2", "CA"],
  ["BC VERNON (AUTOB)", "CWJV", "WJV", "71115", "50.13N", "119.11W", "556", "CA"],
  ["BC VERNON BRIDGE", "CWVK", "WVK", "73033", "50.13N", "119.16W", "555", "CA"],
  ["BC VIC. HARTLAND AU", "CWVV", "WVV", "None", "48.31N", "123.28W", "49", "CA"],
  ["BC VICTORIA (AUTOB)", "CWLM", "WLM", "71200", "48.25N", "123.19W", "70", "CA"],
  ["BC VICTORIA HARBOUR", "CYWH", "YWH", "None", "48.25N", "123.23W", "10", "CA"],
  ["BC VICTORIA INTL AR", "CYYJ", "YYJ", "71799", "48.39N", "123.26W", "19", "CA"],
  ["BC VICTORIA UNIV", "CWYJ", "WYJ", "71783", "48.27N", "123.18W", "39", "CA"],
  ["BC W VANCOUVER AUTO", "CWWA", "WWA", "71784", "49.21N", "123.10W", "178", "CA"],
  ["BC WHISTLER", "CWAE", "WAE", "None", "50.08N", "122.57W", "658", "CA"],
  ["BC WHITE ROCK AUTOB", "CWWK", "WWK", "71785", "49.01N", "122.47W", "15", "CA"],
  ["BC WILLIAMS LAKE AR", "CYWL", "YWL", "71104", "52.11N", "122.04W", "940", "CA"],
  ["BC ALERT BAY (CWAQ)", "None", "None", "71110", "50.34N", "126.55W", "59", "CA"],
  ["BC INGENIKA PT CWWU", "None", "None", "None", "56.47N", "124.54W", "680", "CA"],
  ["MB ARNES", "CWRE", "None", "None", "50.48N", "096.57W", "221", "CA"],
  ["MB BERENS RIVER APT", "CYBV", "YBV", "None", "52.21N", "097.02W", "222", "CA"],
  ["MB BERENS RIVER APT", "CWCF", "WCF", "71158", "52.21N", "097.02W", "222", "CA"]]

/-- `STATIONS` (database/stations.py 4117-4216). -/
noncomputable def stations41 : List StationRow := rows! [
  ["MB BRANDON AIRPORT", "CYBR", "YBR", "71140", "49.55N", "099.57W", "409", "CA"],
  ["MB CARMAN U OF M", "CWNK", "WNK", "71147", "49.30N", "098.02W", "268", "CA"],
  ["MB CHURCHILL AIRPOR", "CYYQ", "YYQ", "71913", "58.45N", "094.04W", "29", "CA"],
  ["MB DAUPHIN AIRPORT", "None", "None", "71855", "51.06N", "100.02W", "305", "CA"],
  ["MB DAUPHIN", "CYDN", "YDN", "71036", "51.06N", "100.03W", "305", "CA"],
  ["MB DEERWOOD RCS", "CXDW", "XDW", "71840", "49.24N", "098.19W", "341", "CA"],
  ["MB DELTA MARSH CS", "CZUG", "None", "71563", "50.11N", "098.23W", "248", "CA"],
  ["MB EMERSON", "CWEX", "None", "71560", "49.00N", "097.14W", "242", "CA"],
  ["MB FISHER BRANCH(MA", "CWSZ", "WSZ", "71442", "51.04N", "097.32W", "253", "CA"],
  ["MB FLIN FLON AIRPOR", "CYFO", "YFO", "None", "54.40N", "101.40W", "304", "CA"],
  ["MB FOXWARREN RADAR", "CXFW", "None", "None", "50.33N", "101.06W", "547", "CA"],
  ["MB GEORGE ISL (MAPS", "CWWS", "WWS", "71445", "52.49N", "097.37W", "223", "CA"],
  ["MB GILLAM AIRPORT", "CYGX", "YGX", "71912", "56.21N", "094.42W", "145", "CA"],
  ["MB GILLAM AIRPORT", "CWGX", "WGX", "None", "56.21N", "094.42W", "145", "CA"],
  ["MB GIMLI", "CYGM", "YGM", "71856", "50.37N", "097.01W", "230", "CA"],
  ["MB GIMLI HARBOUR", "CXGH", "None", "71577", "50.38N", "097.00W", "217", "CA"],
  ["MB GRAND RAPIDS (MA", "CWJD", "WJD", "71858", "53.10N", "099.16W", "223", "CA"],
  ["MB GRETNA (MARS)", "CWGN", "WGN", "71441", "49.01N", "097.34W", "251", "CA"],
  ["MB HUNTERS POINT MA", "CWHH", "WHH", "71142", "53.02N", "100.56W", "256", "CA"],
  ["MB ISLAND LAKE AIRP", "CYIV", "YIV", "71145", "53.51N", "094.39W", "237", "CA"],
  ["MB KELSEY DAM CS", "CZKD", "None", "71572", "56.02N", "096.31W", "183", "CA"],
  ["MB LYNN LAKE AIRPOR", "CYYL", "YYL", "71078", "56.52N", "101.04W", "357", "CA"],
  ["MB MELITA", "CWEI", "None", "71447", "49.17N", "100.59W", "446", "CA"],
  ["MB MORDEN", "CXMD", "XMD", "71564", "49.13N", "098.05W", "301", "CA"],
  ["MB PILOT MOUND (MAR", "CWPO", "WPO", "71148", "49.12N", "098.54W", "470", "CA"],
  ["MB PORTAGE SOUTHPOR", "CYPG", "YPG", "71851", "49.53N", "098.16W", "269", "CA"],
  ["MB SHILO", "CWLO", "WLO", "71853", "49.46N", "099.37W", "373", "CA"],
  ["MB SWAN RIVER (MARS", "CWEQ", "WEQ", "71443", "52.07N", "101.13W", "335", "CA"],
  ["MB TADOULE LAKE CS", "CXBQ", "None", "71334", "58.42N", "098.30W", "262", "CA"],
  ["MB TADOULE LAKE", "CYBQ", "None", "None", "58.42N", "098.30W", "262", "CA"],
  ["MB THE PAS AIRPORT", "CYQD", "YQD", "71867", "53.58N", "101.05W", "271", "CA"],
  ["MB THOMPSON AIRPORT", "CYTH", "YTH", "71079", "55.47N", "097.52W", "218", "CA"],
  ["MB VICTORIA BEACH", "CWII", "WII", "71552", "50.42N", "096.34W", "220", "CA"],
  ["MB VIVIAN RADAR", "CWVJ", "None", "None", "49.53N", "096.28W", "290", "CA"],
  ["MB WINNIPEG INTL AR", "CYWG", "YWG", "71852", "49.53N", "097.13W", "239", "CA"],
  ["MB WINNIPEG", "CXWI", "None", "71843", "49.53N", "097.08W", "251", "CA"],
  ["MB WINNIPEG FORKS", "CXWN", "XWN", "71579", "49.53N", "097.08W", "230", "CA"],
  ["MB NORWAY HOUSE ARP", "CYNE", "YNE", "None", "53.58N", "097.49W", "223", "CA"],
  ["NB BATHURST ARPT(AW", "CZBF", "ZBF", "71574", "47.37N", "065.45W", "59", "CA"],
  ["NB CHARLO AIRPORT", "CZCR", "None", "71711", "47.58N", "066.19W", "38", "CA"],
  ["NB CHARLO", "None", "None", "71315", "47.59N", "066.20W", "42", "CA"],
  ["NB CHIPMAN RADAR", "CXNC", "None", "None", "46.13N", "065.42W", "1", "CA"],
  ["NB EDMUNSTON", "CERM", "None", "None", "47.25N", "068.19W", "154", "CA"],
  ["NB FREDERICTON AIRP", "CYFC", "YFC", "71700", "45.52N", "066.31W", "20", "CA"],
  ["NB GAGETOWN(CAN M", "CYCX", "YCX", "71701", "45.49N", "066.25W", "51", "CA"],
  ["NB GRAND MANAN", "CXGM", "None", "71030", "44.43N", "066.48W", "78", "CA"],
  ["NB MECHANIC SETTLE", "CWMK", "None", "None", "45.42N", "065.10W", "1", "CA"],
  ["NB MIRAMICHI", "CACQ", "YCH", "71717", "47.01N", "065.28W", "31", "CA"],
  ["NB MISCOU ISL (MARS", "CWMI", "WMI", "71719", "48.01N", "064.30W", "3", "CA"],
  ["NB MONCTON AIRPORT", "CYQM", "YQM", "71705", "46.07N", "064.40W", "71", "CA"],
  ["NB POINT LEPREAU", "CWPE", "WPE", "None", "45.04N", "066.28W", "1", "CA"],
  ["NB PT. ESCUMINAC(MA", "CWPJ", "WPJ", "71414", "47.04N", "064.47W", "5", "CA"],
  ["NB SAINT JOHN", "CYSJ", "YSJ", "71609", "45.19N", "065.52W", "109", "CA"],
  ["NB SAINT LEONARD AR", "CYSL", "YSL", "71703", "47.08N", "067.49W", "241", "CA"],
  ["NB ST LEONARD AUTOB", "CWIY", "WIY", "71019", "47.08N", "067.49W", "241", "CA"],
  ["NB ST. STEPHEN (MAR", "CWSS", "WSS", "71607", "45.12N", "067.15W", "26", "CA"],
  ["NB CHARLO AIRPORT", "CYCL", "None", "None", "47.59N", "066.20W", "38", "CA"],
  ["NB CHATHAM", "CYCH", "None", "None", "47.00N", "065.27W", "31", "CA"],
  ["NB MIRAMICHI (AU8)", "CWCQ", "WCQ", "None", "47.00N", "065.28W", "34", "CA"],
  ["NL ARGENTIA (MARS)", "CWAR", "WAR", "71807", "47.17N", "054.00W", "16", "CA"],
  ["NL BADGER (MARS)", "CWDI", "WDI", "71400", "48.58N", "056.04W", "105", "CA"],
  ["NL BONAVISTA", "CWVA", "WVA", "71196", "48.40N", "053.07W", "27", "CA"],
  ["NL BURGEO", "CWBF", "None", "None", "47.37N", "057.38W", "12", "CA"],
  ["NL CAPE KAKKIVIAK", "CWKW", "WKW", "71176", "59.58N", "064.10W", "551", "CA"],
  ["NL CAPE KIGLAPAIT", "CWYK", "WYK", "71177", "57.07N", "061.28W", "834", "CA"],
  ["NL CAPE RACE (MARS)", "CWRA", "WRA", "71800", "46.38N", "053.04W", "28", "CA"],
  ["NL CARTWRIGHT", "CWCA", "None", "71818", "53.42N", "057.01W", "14", "CA"],
  ["NL CARTWRIGHT", "CYCA", "None", "None", "53.41N", "057.02W", "12", "CA"],
  ["NL CHURCHILL FALLS", "CZUM", "ZUM", "71182", "53.32N", "064.05W", "440", "CA"],
  ["NL DANIEL'S HARBOUR", "CWDH", "WDH", "71185", "50.13N", "057.34W", "19", "CA"],
  ["NL DEER LAKE AIRPOR", "CYDF", "YDF", "71809", "49.13N", "057.24W", "22", "CA"],
  ["NL ENGLEE (MAPS)", "CWDA", "WDA", "71417", "50.43N", "056.07W", "29", "CA"],
  ["NL FEROLLE PT. (MAP", "CWXI", "WXI", "None", "51.01N", "057.06W", "6", "CA"],
  ["NL GANDER INTL AIRP", "CYQX", "YQX", "71803", "48.57N", "054.35W", "151", "CA"],
  ["NL GOOSE BAY AIRPOR", "CYYR", "YYR", "71816", "53.19N", "060.25W", "49", "CA"],
  ["NL GRATES COVE", "CWVW", "None", "71336", "48.10N", "052.56W", "18", "CA"],
  ["NL HOLYROOD RADAR", "CWTP", "None", "None", "47.20N", "053.11W", "1", "CA"],
  ["NL HOPEDALE (MAPS)", "CWHO", "WHO", "71900", "55.27N", "060.13W", "8", "CA"],
  ["NL LA SCIE", "CWAG", "None", "71337", "49.55N", "055.40W", "192", "CA"],
  ["NL LONG POND", "CWWU", "None", "None", "47.31N", "052.59W", "13", "CA"],
  ["NL MAKKOVIK AIRPORT", "CYFT", "YFT", "None", "55.04N", "059.10W", "71", "CA"],
  ["NL MARBLE MTN RADAR", "CXME", "None", "None", "48.56N", "057.50W", "1", "CA"],
  ["NL MARY'S HARBOUR", "CYMH", "YMH", "None", "52.17N", "055.51W", "11", "CA"],
  ["NL NAIN AIRPORT", "CYDP", "YDP", "71902", "56.32N", "061.40W", "7", "CA"],
  ["NL PORT AUX BASQUES", "CWZB", "WZB", "71197", "47.34N", "059.10W", "40", "CA"],
  ["NL ROCKY HARBOUR", "CXRH", "XRH", "71588", "49.34N", "057.53W", "68", "CA"],
  ["NL SAGLEK (BAY)", "CWZZ", "WZZ", "71804", "58.19N", "062.34W", "483", "CA"],
  ["NL SAGLEK (BAY)", "None", "None", "71335", "58.20N", "062.35W", "501", "CA"],
  ["NL SAGONA ISL (MAPS", "CWZN", "WZN", "71408", "47.22N", "055.48W", "64", "CA"],
  ["NL SAINT ANTHONY", "CWAX", "WAX", "71819", "51.23N", "056.05W", "111", "CA"],
  ["NL SAINT ANTHONY", "CWDW", "None", "71558", "51.23N", "056.06W", "29", "CA"],
  ["NL SAINT ANTHONY AR", "CYAY", "YAY", "71830", "51.23N", "056.04W", "28", "CA"],
  ["NL ST JOHNS ARP", "CYYT", "YYT", "71801", "47.37N", "052.43W", "140", "CA"],
  ["NL ST JOHNS WEST", "CXSW", "None", "71587", "47.31N", "052.47W", "114", "CA"],
  ["NL STEPHENVILLE ARP", "CYJT", "YJT", "71815", "48.33N", "058.34W", "26", "CA"],
  ["NL TERRA NOVA", "CXTP", "XTP", "71589", "48.33N", "053.58W", "107", "CA"],
  ["NL TUKIALIK BAY", "CWTU", "WTU", "71179", "54.43N", "058.21W", "683", "CA"],
  ["NL TWILLINGATE (MAP", "CWDO", "None", "71402", "49.40N", "054.47W", "92", "CA"],
  ["NL WABUSH LAKE AIRP", "CYWK", "YWK", "71825", "52.55N", "066.52W", "551", "CA"],
  ["NL WRECKHOUSE", "CXWR", "None", "71584", "47.43N", "059.19W", "33", "CA"]]

/-- `STATIONS` (database/stations.py 4217-4316). -/
noncomputable def stations42 : List StationRow := rows! [
  ["NL ST PIERRE-FRANCE", "LFVP", "FVP", "71805", "46.46N", "056.11W", "8", "FR"],
  ["NS AMHERST (MARS)", "CWAH", "WAH", "71410", "45.51N", "064.16W", "23", "CA"],
  ["NS BEAVER ISLAND(MA", "CWBV", "WBV", "71403", "44.49N", "062.19W", "10", "CA"],
  ["NS BRIER ISLAND(AUT", "CWVU", "WVU", "None", "44.17N", "066.20W", "16", "CA"],
  ["NS CAPE GEORGE (AUT", "CWGU", "WGU", "None", "45.52N", "061.54W", "120", "CA"],
  ["NS CARIBOU POINT(MA", "CWBK", "WBK", "71415", "45.46N", "062.40W", "2", "CA"],
  ["NS CHETICAMP", "CXCH", "XCH", "None", "46.38N", "060.57W", "44", "CA"],
  ["NS DEBERT", "CZDB", "None", "71317", "45.25N", "063.28W", "38", "CA"],
  ["NS DIGBY ARPT (AWRS", "CYID", "YID", "None", "44.32N", "065.46W", "152", "CA"],
  ["NS FOURCHU HEAD(MAP", "CWRW", "WRW", "71416", "45.43N", "060.13W", "10", "CA"],
  ["NS GRAND ETANG (AUT", "CWZQ", "WZQ", "71413", "46.32N", "061.03W", "17", "CA"],
  ["NS GREENWOOD (CAN M", "CYZX", "YZX", "71397", "44.59N", "064.55W", "28", "CA"],
  ["NS HALIFAX INTL ARP", "CYHZ", "YHZ", "71395", "44.52N", "063.30W", "145", "CA"],
  ["NS HART ISLAND (MAP", "CWRN", "WRN", "71419", "45.21N", "060.59W", "8", "CA"],
  ["NS INGONISH BEACH", "CXIB", "XIB", "71027", "46.40N", "060.23W", "8", "CA"],
  ["NS KEJIMKUJIK (AU8)", "CWKG", "WKG", "71599", "44.26N", "065.12W", "165", "CA"],
  ["NS KENTVILLE (AUTOB", "CXKT", "XKT", "71605", "45.04N", "064.29W", "49", "CA"],
  ["NS LUNENBURG", "CXLB", "None", "None", "44.22N", "064.18W", "4", "CA"],
  ["NS MALAY FALLS", "CXMY", "XMY", "None", "44.59N", "062.29W", "40", "CA"],
  ["NS MARION BRIDGE", "CXMB", "None", "None", "45.57N", "060.12W", "1", "CA"],
  ["NS MCNABS ISLAND", "CXMI", "XMI", "None", "44.36N", "063.32W", "15", "CA"],
  ["NS NAPPAN (AUTO)", "CXNP", "None", "71311", "45.45N", "064.14W", "20", "CA"],
  ["NS NORTH MOUNTAIN", "CXNM", "XNM", "None", "46.49N", "060.40W", "439", "CA"],
  ["NS PORT HAWKESBURY", "CYPD", "YPD", "None", "45.40N", "061.22W", "114", "CA"],
  ["NS ROWAN GORILLA II", "CWXO", "WXO", "None", "43.52N", "060.32W", "44", "CA"],
  ["NS SABLE ISLAND", "CWSA", "WSA", "71600", "43.56N", "060.00W", "4", "CA"],
  ["NS SABLE ISLAND(APT", "CYSA", "YSA", "None", "43.55N", "060.00W", "4", "CA"],
  ["NS SHEARWATER(CAN M", "CYAW", "YAW", "71601", "44.38N", "063.30W", "51", "CA"],
  ["NS SHELBURNE", "CWOS", "WOS", "71399", "43.43N", "065.15W", "30", "CA"],
  ["NS ST. PAUL ISL(MAP", "CWEF", "WEF", "71418", "47.13N", "060.07W", "26", "CA"],
  ["NS SYDNEY AIRPORT", "CYQY", "YQY", "71707", "46.10N", "060.02W", "62", "CA"],
  ["NS TRACADIE", "CXTD", "None", "71308", "45.37N", "061.41W", "68", "CA"],
  ["NS TRENTON MUNICIPA", "CYTN", "YTN", "None", "45.37N", "062.37W", "97", "CA"],
  ["NS TRURO (MARS)", "CWUR", "WUR", "71398", "45.22N", "063.16W", "40", "CA"],
  ["NS WESTERN HEAD (MA", "CWWE", "WWE", "71411", "43.58N", "064.40W", "9", "CA"],
  ["NS YARMOUTH AIRPORT", "CYQI", "YQI", "71603", "43.50N", "066.05W", "43", "CA"],
  ["NT AKLAVIK AIRPORT", "CYKD", "YKD", "None", "68.13N", "135.00W", "7", "CA"],
  ["NT CAPE PARRY AUTO4", "CZCP", "None", "None", "70.10N", "124.43W", "93", "CA"],
  ["NT COLVILLE LAKE", "CYVL", "None", "None", "67.01N", "126.08W", "259", "CA"],
  ["NT DEADMAN VALLEY", "CXDK", "None", "71021", "61.16N", "124.28W", "283", "CA"],
  ["NT DELINE", "CXDE", "XDE", "71503", "65.13N", "123.26W", "213", "CA"],
  ["NT EKATI (PWS)", "CYOA", "YOA", "None", "64.42N", "110.37W", "469", "CA"],
  ["NT FORT FRANKLIN AR", "CYWJ", "YWJ", "None", "65.13N", "123.26W", "176", "CA"],
  ["NT FORT GOOD HOPE A", "CYGH", "YGH", "None", "66.16N", "128.37W", "66", "CA"],
  ["NT FORT LIARD AIRPO", "CYJF", "YJF", "None", "60.13N", "123.28W", "215", "CA"],
  ["NT FORT MCPHERSON A", "CZFM", "ZFM", "None", "67.24N", "134.52W", "43", "CA"],
  ["NT FORT NORMAN AIRP", "CZFN", "ZFN", "None", "64.55N", "125.34W", "98", "CA"],
  ["NT FORT PROVIDENCE", "CWID", "WID", "71087", "61.19N", "117.36W", "161", "CA"],
  ["NT FORT RESOLUTION", "CYFR", "YFR", "None", "61.10N", "113.40W", "164", "CA"],
  ["NT FORT SIMPSON ARP", "CYFS", "YFS", "71946", "61.45N", "121.13W", "169", "CA"],
  ["NT FT SIMPSON 71681", "CXFS", "None", "None", "61.45N", "121.14W", "169", "CA"],
  ["NT FORT SIMPSON", "CZFS", "None", "71365", "61.46N", "121.14W", "168", "CA"],
  ["NT FORT SMITH AIRPO", "CYSM", "YSM", "71934", "60.02N", "111.58W", "203", "CA"],
  ["NT FORT SMITH", "CZSM", "None", "71362", "60.02N", "111.56W", "203", "CA"],
  ["NT GATESHEAD ISLAND", "CNGH", "None", "71141", "70.38N", "100.16W", "20", "CA"],
  ["NT HAY RIVER AIRPOR", "CYHY", "YHY", "71935", "60.49N", "115.46W", "166", "CA"],
  ["NT HAY RIVER", "CZHY", "None", "71361", "60.50N", "115.47W", "164", "CA"],
  ["NT HANBURY RIVER", "CWQY", "None", "71963", "63.36N", "105.08W", "318", "CA"],
  ["NT HOLMAN ISLAND AR", "CYHI", "YHI", "None", "70.46N", "117.47W", "36", "CA"],
  ["NT HOLMAN CS", "CXHI", "None", "71029", "70.46N", "117.48W", "30", "CA"],
  ["NT INDIAN RIVER", "CWIE", "WIE", "71161", "64.23N", "115.01W", "478", "CA"],
  ["NT INUVIK AIRPORT", "CYEV", "YEV", "71957", "68.19N", "133.30W", "68", "CA"],
  ["NT INUVIK", "CZEV", "None", "71364", "68.19N", "133.31W", "103", "CA"],
  ["NT JEAN MARIER", "CXJM", "None", "71159", "61.21N", "120.47W", "227", "CA"],
  ["NT KEATS POINT", "CWKP", "None", "71058", "69.40N", "121.40W", "330", "CA"],
  ["NT LAC LA MARTRE", "CWMT", "None", "71163", "63.08N", "117.15W", "271", "CA"],
  ["NT LINDBERG LANDING", "CXLL", "None", "71682", "61.07N", "122.51W", "183", "CA"],
  ["NT LIVERPOOL BAY", "CWLI", "WLI", "71960", "69.35N", "130.54W", "102", "CA"],
  ["NT LOWER CARP LAKE", "CXLC", "XLC", "71680", "63.36N", "113.51W", "373", "CA"],
  ["NT LUTSEL KE ARPT (", "CYLK", "YLK", "None", "62.25N", "110.40W", "179", "CA"],
  ["NT LUTSEL KE CS", "CXLU", "None", "71529", "62.25N", "110.40W", "179", "CA"],
  ["NT MOULD BAY", "CYMD", "YMD", "71072", "76.13N", "119.19W", "12", "CA"],
  ["NT MOULD BAY CAMP", "CWMD", "WMD", "None", "76.13N", "119.19W", "12", "CA"],
  ["NT NORMAN WELLS ARP", "CYVQ", "YVQ", "71043", "65.16N", "126.47W", "74", "CA"],
  ["NT PAULATUK AIRPORT", "CYPC", "YPC", "None", "69.22N", "124.04W", "6", "CA"],
  ["NT PELLY ISLAND", "CWND", "None", "71502", "69.38N", "135.26W", "12", "CA"],
  ["NT QAVVIK LAKE", "CXQA", "None", "71583", "68.15N", "122.06W", "530", "CA"],
  ["NT RAE LAKES", "CYRA", "YRA", "None", "64.07N", "117.19W", "213", "CA"],
  ["NT RAE LAKES", "CWYH", "None", "71165", "64.07N", "117.22W", "220", "CA"],
  ["NT ROBERTSON LAKE", "CWTD", "None", "71490", "65.06N", "102.26W", "244", "CA"],
  ["NT SACHS HARBOUR(M", "CYSY", "YSY", "71051", "72.00N", "125.16W", "86", "CA"],
  ["NT TRAIL VALLEY", "CXTV", "XTV", "71683", "68.45N", "133.30W", "85", "CA"],
  ["NT TUKTOYAKTUK", "CYUB", "YUB", "71954", "69.27N", "133.01W", "5", "CA"],
  ["NT TUKTUT NOGAIT NP", "CXTN", "XTN", "71492", "69.12N", "122.21W", "552", "CA"],
  ["NT WEKWEETI", "CYWE", "None", "None", "64.11N", "114.05W", "371", "CA"],
  ["NT WRIGLEY AIRPORT", "CYWY", "YWY", "None", "63.13N", "123.25W", "150", "CA"],
  ["NT YELLOWKNIFE AIRP", "CYZF", "YZF", "71936", "62.28N", "114.27W", "206", "CA"],
  ["NT YOHIN", "CXYH", "None", "71020", "61.15N", "123.45W", "204", "CA"],
  ["NT CANADA/ARTCC", "CZVE", "ZVE", "None", "70.10N", "124.41W", "1", "CA"],
  ["NU ALERT", "CWLT", "WLT", "71082", "82.30N", "062.19W", "63", "CA"],
  ["NU ALERT AIRPORT", "CYLT", "YLT", "None", "82.31N", "062.16W", "31", "CA"],
  ["NU ALERT", "CZLT", "None", "71355", "82.30N", "062.20W", "65", "CA"],
  ["NU ARCTIC BAY CS", "CXAT", "XAT", "71592", "73.00N", "085.02W", "19", "CA"],
  ["NU ARCTIC BAY", "CYAB", "None", "None", "73.00N", "085.03W", "22", "CA"],
  ["NU ARVIAT AIRPORT", "CYEK", "YEK", "None", "61.06N", "094.04W", "10", "CA"],
  ["NU ARVIAT CLIMATE", "CXAR", "None", "71332", "61.06N", "094.04W", "10", "CA"],
  ["NU BAKER LAKE AIRPO", "CYBK", "YBK", "71926", "64.17N", "096.04W", "18", "CA"],
  ["NU BAKER LAKE", "CXBL", "None", "71356", "64.19N", "096.00W", "51", "CA"],
  ["NU BREVOORT ISLAND", "CWOB", "WOB", "71097", "63.19N", "064.09W", "367", "CA"],
  ["NU QIKIQTARJUAQ", "CYVM", "None", "71338", "67.32N", "064.01W", "6", "CA"]]

/-- `STATIONS` (database/stations.py 4317-4416). -/
noncomputable def stations43 : List StationRow := rows! [
  ["NU BROUGHTON ISLAND", "CWVD", "WVD", "None", "67.31N", "063.46W", "573", "CA"],
  ["NU BROWN RIVER", "CWBR", "None", "71049", "66.02N", "091.50W", "31", "CA"],
  ["NU CAMBRIDGE BAY AR", "CYCB", "YCB", "71925", "69.05N", "105.07W", "27", "CA"],
  ["NU CAMBRIDGE BAY", "CXCM", "None", "71288", "69.06N", "105.08W", "19", "CA"],
  ["NU CAPE DORSET AIRP", "CYTE", "YTE", "71910", "64.13N", "076.31W", "47", "CA"],
  ["NU CAPE DYER AIRPOR", "CWFD", "WFD", "71094", "66.34N", "061.35W", "393", "CA"],
  ["NU CAPE HOOPER", "CWUP", "WUP", "71093", "68.28N", "066.49W", "390", "CA"],
  ["NU CAPE MERCY", "CWYM", "WYM", "71975", "64.57N", "063.34W", "583", "CA"],
  ["NU CAPE PEEL WEST", "CWPX", "WPX", "71064", "69.01N", "107.49W", "165", "CA"],
  ["NU CHESTERFIELD INL", "CYCS", "YCS", "None", "63.21N", "090.43W", "11", "CA"],
  ["NU COPPERMINE AIRPO", "CYCO", "YCO", "71938", "67.49N", "115.09W", "22", "CA"],
  ["NU CORAL HARBOUR AR", "CYZS", "YZS", "71915", "64.12N", "083.22W", "64", "CA"],
  ["NU CROKER RIVER", "CWXR", "WXR", "71059", "69.16N", "119.13W", "69", "CA"],
  ["NU CYLDE AIRPORT", "CYCY", "YCY", "71090", "70.28N", "068.31W", "26", "CA"],
  ["NU DEWAR LAKES", "CWUW", "WUW", "71092", "68.39N", "071.10W", "527", "CA"],
  ["NU ENNADAI LAKE (MA", "CWJC", "WJC", "71923", "61.08N", "100.54W", "357", "CA"],
  ["NU EUREKA", "CWEU", "None", "71917", "80.00N", "085.55W", "10", "CA"],
  ["NU EUREKA", "CYEU", "None", "None", "80.00N", "085.49W", "78", "CA"],
  ["NU FROBISHER/IQALUI", "CYFB", "YFB", "71909", "63.45N", "068.33W", "34", "CA"],
  ["NU IQALUIT (CYFB)", "None", "None", "71321", "63.45N", "068.33W", "34", "CA"],
  ["NU GJOA HAVEN AIRPO", "CYHK", "YHK", "None", "68.37N", "095.50W", "46", "CA"],
  ["NU GJOA HAVEN", "CZHK", "None", "71363", "68.38N", "095.51W", "42", "CA"],
  ["NU GRISE FIORD AIR", "CWGZ", "WGZ", "None", "76.25N", "082.54W", "45", "CA"],
  ["NU HALL BEACH AIRPO", "CYUX", "None", "71081", "68.46N", "081.15W", "8", "CA"],
  ["NU HALL BEACH", "CXUX", "None", "71320", "68.47N", "081.15W", "8", "CA"],
  ["NU HAT ISLAND", "CWIL", "WIL", "71084", "68.19N", "100.04W", "36", "CA"],
  ["NU IGLOOLIK AIRPORT", "CYGT", "YGT", "None", "69.22N", "081.49W", "51", "CA"],
  ["NU ISACHSEN (MAPS)", "CWIC", "WIC", "71074", "78.47N", "103.33W", "58", "CA"],
  ["NU LADY FRANKLIN PO", "CYUJ", "YUJ", "71937", "68.30N", "113.13W", "16", "CA"],
  ["NU LAKE HARBOUR ARP", "CYLC", "YLC", "None", "62.51N", "069.52W", "53", "CA"],
  ["NU LONGSTAFF BLUFF", "CWLX", "WLX", "71091", "68.54N", "075.09W", "162", "CA"],
  ["NU LUPIN ARPT (SAWR", "CYWO", "YWO", "71496", "65.46N", "111.15W", "494", "CA"],
  ["NU LUPIN (MAPS)", "CWIJ", "WIJ", "None", "65.46N", "111.14W", "500", "CA"],
  ["NU NANISIVIK AIRPOR", "CYSR", "YSR", "None", "72.58N", "084.37W", "649", "CA"],
  ["NU PANGNIRTUNG AIRP", "CYXP", "YXP", "None", "66.09N", "065.43W", "23", "CA"],
  ["NU PELLY BAY 1", "CWRF", "WRF", "71918", "69.25N", "089.43W", "325", "CA"],
  ["NU PELLY BAY AIRPOR", "CYBB", "YBB", "None", "68.31N", "089.49W", "15", "CA"],
  ["NU POND INLET AIRPO", "CYIO", "YIO", "71095", "72.40N", "077.58W", "57", "CA"],
  ["NU RAE POINT", "CZRP", "None", "71983", "75.22N", "105.43W", "12", "CA"],
  ["NU RANKIN INLET ARP", "CYRT", "YRT", "71083", "62.49N", "092.07W", "32", "CA"],
  ["NU REPULSE BAY AIRP", "CYUT", "YUT", "None", "66.31N", "086.15W", "24", "CA"],
  ["NU RESOLUTE AIRPORT", "CYRB", "YRB", "71924", "74.43N", "094.58W", "67", "CA"],
  ["NU RESOLUTE CS", "CXRB", "None", "71018", "74.43N", "094.59W", "30", "CA"],
  ["NU RESOLUTION IS", "CWRH", "WRH", "71972", "61.34N", "064.39W", "369", "CA"],
  ["NU ROWLEY ISLAND", "CWRX", "WRX", "71088", "69.04N", "079.01W", "41", "CA"],
  ["NU SANIKILUAQ AIRPO", "CYSK", "YSK", "None", "56.32N", "079.15W", "26", "CA"],
  ["NU SHEPHERD BAY ARP", "CYUS", "YUS", "71911", "68.49N", "093.25W", "42", "CA"],
  ["NU SPENCE BAY AIRPO", "CYYH", "YYH", "None", "69.32N", "093.34W", "28", "CA"],
  ["NU STEFANSSON IS", "CXSE", "None", "71017", "73.46N", "105.17W", "11", "CA"],
  ["NU WAGER BAY", "CXWB", "None", "None", "65.53N", "089.27W", "18", "CA"],
  ["NU WHALE COVE AIRPO", "CYXN", "YXN", "None", "62.13N", "092.35W", "20", "CA"],
  ["NU IQALUIT CLIMATE", "CXFB", "None", "None", "63.45N", "068.33W", "34", "CA"],
  ["ON ARMSTRONG (MARS)", "CYYW", "None", "71841", "50.18N", ".88.54W", "351", "CN"],
  ["ON ATIKOKAN (AUT)", "CWCH", "WCH", "71747", "48.45N", "091.37W", "424", "CA"],
  ["ON ATIKOKAN", "None", "WIB", "71748", "48.45N", "091.36W", "393", "CA"],
  ["ON ATTAWAPISKAT", "CYAT", "None", "None", "52.56N", "082.26W", "9", "CA"],
  ["ON BANCROFT AUTOB", "CWRK", "WRK", "None", "45.04N", "077.52W", "331", "CA"],
  ["ON BARRIE (MARS)", "CWCU", "WCU", "71436", "44.22N", "079.46W", "295", "CA"],
  ["ON BARRIE-ORO", "CXBI", "None", "71314", "44.29N", "079.33W", "289", "CA"],
  ["ON BEAUSOLEIL ISL A", "CWPB", "WPB", "71272", "44.51N", "079.52W", "183", "CA"],
  ["ON BELLE RIVER AUT0", "CWDD", "WDD", "71273", "42.17N", "082.42W", "184", "CA"],
  ["ON BIG TROUT LAKE", "CWTL", "WTL", "None", "53.49N", "089.53W", "222", "CA"],
  ["ON BIG TROUT LAKE", "CYTL", "YTL", "71848", "53.49N", "089.53W", "224", "CA"],
  ["ON BORDEN", "CYBN", "YBN", "71534", "44.16N", "079.55W", "223", "CA"],
  ["ON BRITT (MARS)", "CWBI", "WBI", "71632", "45.48N", "080.32W", "190", "CA"],
  ["ON BURLINGTON PIERS", "CWWB", "WWB", "71437", "43.18N", "079.47W", "76", "CA"],
  ["ON CAMERON FALLS", "CXCA", "XCA", "71291", "49.09N", "088.21W", "228", "CA"],
  ["ON CARIBOU ISL (MAP", "CWCI", "WCI", "71433", "47.19N", "085.49W", "187", "CA"],
  ["ON CHAPLEAU ARPT(SA", "CYLD", "YLD", "None", "47.49N", "083.20W", "447", "CA"],
  ["ON CHATHAM", "CYCK", "None", "None", "42.18N", "082.05W", "198", "CA"],
  ["ON COBOURG (MARS)", "CWNC", "None", "71431", "43.57N", "078.10W", "78", "CA"],
  ["ON COLLINGWOOD (AUT", "CWCO", "WCO", "71270", "44.27N", "080.10W", "221", "CA"],
  ["ON COVE ISLAND (MAP", "CWWX", "WWX", "71439", "45.19N", "081.44W", "181", "CA"],
  ["ON CYPRUS LAKE CS", "CXCY", "XCY", "None", "45.14N", "081.32W", "190", "CA"],
  ["ON DELHI CS (AUT)", "CXDI", "XDI", "71573", "42.52N", "080.33W", "232", "CA"],
  ["ON DRYDEN AIRPORT", "CYHD", "YHD", "None", "49.49N", "092.45W", "413", "CA"],
  ["ON DRYDEN", "CXDR", "None", "None", "49.51N", "092.48W", "413", "CA"],
  ["ON EAR FALLS (AUT)", "CXEA", "XEA", "71295", "50.38N", "093.13W", "355", "CA"],
  ["ON EARLTON AIRPORT", "CYXR", "YXR", "71735", "47.42N", "079.50W", "243", "CA"],
  ["ON EARLTON", "CZXR", "None", "71533", "47.42N", "079.50W", "243", "CA"],
  ["ON EGBERT CS", "CXET", "XET", "71296", "44.14N", "079.47W", "251", "CA"],
  ["ON EGBERT (MAPS)", "CWET", "None", "71561", "44.14N", "079.47W", "251", "CA"],
  ["ON ELLIOT LAKE (SAW", "CYEL", "YEL", "None", "46.21N", "082.34W", "329", "CA"],
  ["ON ELORA RCS", "CZEL", "None", "71352", "43.39N", "080.25W", "376", "CA"],
  ["ON ERIEAU (MAPS)", "CWAJ", "WAJ", "71465", "42.15N", "081.54W", "178", "CA"],
  ["ON EXETER RADAR", "CWSO", "None", "None", "43.22N", "081.23W", "1", "CA"],
  ["ON FT SEVERN", "CYER", "None", "71099", "56.01N", "087.41W", "16", "CA"],
  ["ON FRANKTOWN", "CXFT", "None", "None", "45.02N", "076.06W", "122", "CA"],
  ["ON GERALDTON AIRPOR", "CYGQ", "YGQ", "71834", "49.46N", "086.55W", "351", "CA"],
  ["ON GODERICH (AUTOB)", "CWGD", "WGD", "71261", "43.46N", "081.43W", "214", "CA"],
  ["ON GORE BAY AIRPORT", "CYZE", "YZE", "71733", "45.52N", "082.34W", "193", "CA"],
  ["ON GREAT DUCK ISLAN", "CWNL", "WNL", "71462", "45.37N", "082.58W", "183", "CA"],
  ["ON GRENADIER ISLAND", "CWGH", "WGH", "71281", "44.25N", "075.51W", "82", "CA"],
  ["ON HAMILTON AIRPORT", "CYHM", "YHM", "71263", "43.10N", "079.56W", "238", "CA"],
  ["ON HAMILTON RBG CS", "CXHM", "XHM", "71297", "43.17N", "079.54W", "107", "CA"],
  ["ON HARROW CDA", "CXHA", "XHA", "71298", "42.02N", "082.54W", "191", "CA"],
  ["ON KAPUSKASING AIRP", "CYYU", "YYU", "71831", "49.25N", "082.28W", "227", "CA"],
  ["ON KAPUSKASING CDA", "CXKA", "XKA", "71299", "49.24N", "082.27W", "218", "CA"],
  ["ON KATATOTA ISLAND", "CWKK", "None", "None", "49.43N", "088.20W", "260", "CA"],
  ["ON KEMPTVILLE", "CXKE", "XKE", "71300", "45.00N", "075.38W", "99", "CA"]]

/-- `STATIONS` (database/stations.py 4417-4516). -/
noncomputable def stations44 : List StationRow := rows! [
  ["ON KENORA AIRPORT", "CYQK", "YQK", "71850", "49.46N", "094.22W", "411", "CA"],
  ["ON KILLARNEY (MAPS)", "CWBE", "WBE", "71460", "45.59N", "081.29W", "196", "CA"],
  ["ON KINGSTON ARPT (M", "CYGK", "YGK", "71620", "44.13N", "076.35W", "93", "CA"],
  ["ON KIRKLAND LAKE", "CXKI", "None", "71301", "48.13N", "080.00W", "324", "CA"],
  ["ON LADRIENNE RADAR", "CXLA", "None", "None", "48.33N", "077.48W", "1", "CA"],
  ["ON LAGOON CITY", "CWGL", "WGL", "71282", "44.31N", "079.13W", "221", "CA"],
  ["ON LANSDOWNE HOUSE", "CWLF", "WLF", "71846", "52.13N", "087.52W", "242", "CA"],
  ["ON LANSDOWNE HOUSE", "CYLF", "None", "None", "52.14N", "087.53W", "242", "CA"],
  ["ON LANSDOWNE 71697", "CYLH", "None", "None", "52.12N", "087.56W", "254", "CA"],
  ["ON OSHAWA", "None", "None", "71697", "43.55N", "078.53W", "140", "CA"],
  ["ON LONDON CS", "CWSN", "None", "71622", "43.02N", "081.09W", "278", "CA"],
  ["ON LONDON AIRPORT", "CYXU", "YXU", "71623", "43.01N", "081.09W", "278", "CA"],
  ["ON LONG POINT (MAPS", "CWPS", "WPS", "71464", "42.34N", "080.02W", "175", "CA"],
  ["ON MARATHON", "CYSP", "None", "None", "48.45N", "086.21W", "315", "CA"],
  ["ON MONTREAL RIV HAR", "CWGJ", "None", "None", "47.14N", "084.35W", "559", "CA"],
  ["ON MONTREAL RIV", "CZGJ", "None", "None", "47.15N", "084.36W", "520", "CA"],
  ["ON MOOSONEE (SAWR)", "CYMO", "YMO", "71836", "51.17N", "080.37W", "10", "CA"],
  ["ON MOOSONEE", "CWZC", "None", "None", "51.17N", "080.36W", "11", "CA"],
  ["ON MOOSONEE RCS", "CXZC", "None", "71309", "51.18N", "080.37W", "9", "CA"],
  ["ON MOUNT FOREST(MAR", "CWLS", "WLS", "71631", "43.58N", "080.45W", "415", "CA"],
  ["ON MUSKOKA AIRPORT", "CYQA", "YQA", "71630", "44.58N", "079.17W", "282", "CA"],
  ["ON MUSKRAT DAM", "CZMD", "None", "None", "53.26N", "091.46W", "278", "CA"],
  ["ON NAGAGAMI (MARS)", "CWNZ", "WNZ", "71832", "49.45N", "084.10W", "256", "CA"],
  ["ON NORTH BAY AIRPOR", "CYYB", "YYB", "71731", "46.21N", "079.25W", "371", "CA"],
  ["ON NORTHEAST ONT", "CXTI", "None", "None", "49.17N", "081.47W", "1", "CA"],
  ["ON OGOKI POST", "CYKP", "YKP", "None", "51.40N", "085.54W", "179", "CA"],
  ["ON OLIPHANT (AUTOB)", "CWDF", "WDF", "71283", "44.43N", "081.16W", "182", "CA"],
  ["ON OSHAWA", "CYOO", "None", "None", "43.55N", "078.54W", "139", "CA"],
  ["ON OTTAWA INTL", "CYOW", "YOW", "71628", "45.19N", "075.40W", "114", "CA"],
  ["ON OTTAWA CDA RCS", "CXOA", "None", "71063", "45.23N", "075.43W", "79", "CA"],
  ["ON N ONTARIO PORTAB", "CXQT", "XQT", "None", "48.26N", "089.13W", "183", "CA"],
  ["ON PARRY SOUND", "CXPC", "None", "71172", "45.21N", "080.03W", "176", "CA"],
  ["ON PEAWANUCK", "CYPO", "YPO", "None", "54.59N", "085.26W", "53", "CA"],
  ["ON PETAWAWA", "CYWA", "YWA", "71625", "45.57N", "077.19W", "130", "CA"],
  ["ON PETERBOROUGH ARP", "CYPQ", "YPQ", "None", "44.13N", "078.22W", "191", "CA"],
  ["ON PICKLE LAKE", "CYPL", "YPL", "71845", "51.28N", "090.12W", "373", "CA"],
  ["ON POINT PETRE (MAR", "CWQP", "WQP", "71430", "43.50N", "077.09W", "79", "CA"],
  ["ON PORT COLBORNE(AU", "CWPC", "WPC", "71463", "42.52N", "079.15W", "184", "CA"],
  ["ON PORT WELLER (MAR", "CWWZ", "WWZ", "71432", "43.15N", "079.13W", "79", "CA"],
  ["ON PUKASKWA PARK", "CWCJ", "WCJ", "None", "48.36N", "086.17W", "206", "CA"],
  ["ON RAWSON LAKE", "CYTA", "None", "None", "49.40N", "093.44W", "435", "CA"],
  ["ON RAWSON LAKE", "CTRA", "None", "None", "49.40N", "093.44W", "435", "CA"],
  ["ON RED LAKE AIRPORT", "CYRL", "YRL", "71854", "51.04N", "093.47W", "383", "CA"],
  ["ON RIDGETOWN RCS", "CXRG", "None", "71307", "42.27N", "081.53W", "205", "CA"],
  ["ON ROQUEMAURE", "CWGQ", "WGQ", "71736", "48.37N", "079.27W", "269", "CA"],
  ["ON S.E. SHOAL (MAPS", "CWNB", "WNB", "71466", "41.49N", "082.28W", "195", "CA"],
  ["ON SANDY LAKE", "CZSJ", "None", "71098", "53.04N", "093.21W", "290", "CA"],
  ["ON SARNIA AIRPORT", "CYZR", "YZR", "71634", "43.00N", "082.18W", "181", "CA"],
  ["ON SAULT STE MARIE", "CYAM", "YAM", "71260", "46.28N", "084.31W", "192", "CA"],
  ["ON SIOUX LOOKOUT AR", "CYXL", "YXL", "71842", "50.07N", "091.54W", "390", "CA"],
  ["ON ST. CATHARINES A", "CYSN", "YSN", "None", "43.12N", "079.10W", "98", "CA"],
  ["QC STERLING", "CYQC", "None", "None", "46.19N", "077.38W", "139", "CA"],
  ["ON SUDBURY AIRPORT", "CYSB", "YSB", "71730", "46.38N", "080.48W", "348", "CA"],
  ["ON SUPERIOR W RADAR", "CXNI", "None", "None", "48.51N", "089.07W", "1", "CA"],
  ["ON TERRACE BAY (SAW", "CYTJ", "YTJ", "None", "48.49N", "087.05W", "287", "CA"],
  ["ON THUNDER BAY", "CYQT", "YQT", "71749", "48.22N", "089.19W", "199", "CA"],
  ["ON THUNDER BAY", "CZTB", "None", "None", "48.22N", "089.19W", "199", "CA"],
  ["ON TIMMINS AIRPORT", "CYTS", "YTS", "71739", "48.34N", "081.22W", "295", "CA"],
  ["ON TORONTO BUTTONVI", "CYKZ", "YKZ", "71639", "43.52N", "079.22W", "198", "CA"],
  ["ON TORONTO ILVOR", "CYTZ", "YTZ", "71265", "43.38N", "079.24W", "77", "CA"],
  ["ON TORONTO/PEARSON", "CYYZ", "YYZ", "71624", "43.40N", "079.37W", "173", "CA"],
  ["ON TORONTO CITY", "CXTO", "None", "71508", "43.40N", "079.24W", "113", "CA"],
  ["ON TRENTON (CAN MIL", "CYTR", "YTR", "71621", "44.07N", "077.31W", "86", "CA"],
  ["ON TROWBRIDGE (MAPS", "CWAB", "WAB", "71461", "48.17N", "088.52W", "218", "CA"],
  ["ON UPPER RIDEAU LAK", "CWJM", "WJM", "71290", "44.42N", "076.17W", "125", "CA"],
  ["ON UPSALA (MARS)", "CWDV", "WDV", "71435", "49.01N", "090.28W", "489", "CA"],
  ["ON UPSALA (RADAR)", "CWIM", "None", "None", "49.02N", "090.25W", "538", "CA"],
  ["ON VINELAND (AU8)", "CXVN", "XVN", "71171", "43.11N", "079.24W", "79", "CA"],
  ["ON WATERLOO WELL", "CYKF", "YKF", "71368", "43.28N", "080.23W", "317", "CA"],
  ["ON WAWA AIRPORT", "CYXZ", "YXZ", "71738", "47.58N", "084.46W", "287", "CA"],
  ["ON WELCOME ISLAND", "CWEC", "None", "71751", "48.22N", "089.07W", "209", "CA"],
  ["ON WESTERN ISL (MAP", "CWMZ", "WMZ", "71438", "45.01N", "080.22W", "191", "CA"],
  ["ON WIARTON AIR", "CYVV", "YVV", "71633", "44.45N", "081.05W", "222", "CA"],
  ["ON WINDSOR AIRPORT", "CYQG", "YQG", "71538", "42.16N", "082.58W", "190", "CA"],
  ["ON SIMCOE (MARS)", "CWSI", "WSI", "71527", "42.51N", "080.16W", "241", "CA"],
  ["ON KENORA/ONT VOR", "CVBI", "VBI", "None", "49.28N", "094.02W", "394", "CA"],
  ["ON PICKLE LAKE", "CWPL", "WPL", "None", "51.28N", "090.12W", "386", "CA"],
  ["ON ALFRED", "CTAE", "None", "71366", "45.33N", "074.53W", "57", "CA"],
  ["ON ALEXANDRIA 71393", "CTAL", "None", "None", "45.19N", "074.37W", "77", "CA"],
  ["ON MOOSE CREEK", "CTCK", "None", "71304", "45.15N", "074.58W", "85", "CA"],
  ["ON CORNWALL", "CTCW", "None", "71369", "45.02N", "074.41W", "58", "CA"],
  ["ON ALGONQUIN PARK", "CTNK", "None", "71581", "45.32N", "078.16W", "410", "CA"],
  ["ON WINCHESTER", "CTWN", "None", "71367", "45.03N", "075.20W", "75", "CA"],
  ["PE CHARLOTTETOWN AR", "CYYG", "YYG", "71706", "46.16N", "063.07W", "54", "CA"],
  ["PE CONFEDERATION BR", "CXBP", "None", "None", "46.14N", "063.44W", "54", "CA"],
  ["PE EAST POINT (MARS", "CWEP", "WEP", "71412", "46.27N", "061.58W", "11", "CA"],
  ["PE MAPLE PLAINS PEI", "CXMP", "None", "None", "46.18N", "063.35W", "46", "CA"],
  ["PE NORTH POINT (AUT", "CWNE", "WNE", "None", "47.04N", "064.00W", "15", "CA"],
  ["PE ST PETERS", "CZSP", "None", "71310", "46.27N", "062.35W", "30", "CA"],
  ["PE SUMMERSIDE (AUTO", "CWSD", "None", "None", "46.25N", "063.51W", "24", "CA"],
  ["PE SUMMERSIDE(CAN M", "CYSU", "YSU", "71702", "46.25N", "063.49W", "24", "CA"],
  ["PE HARRINGTON CDA", "CAHR", "None", "71350", "46.21N", "063.10W", "53", "CA"],
  ["QC AMQUI", "CWZS", "WZS", "71386", "48.28N", "067.26W", "166", "CA"],
  ["QC AKULIVIK AIRPORT", "CYKO", "YKO", "None", "60.49N", "078.09W", "9", "CA"],
  ["QC AUPALUK", "CYLA", "YLA", "None", "59.17N", "069.35W", "35", "CA"],
  ["QC BAGOTVILLE(CAN M", "CYBG", "YBG", "71727", "48.20N", "070.59W", "159", "CA"],
  ["QC BAIE COMEAU AIRP", "CYBC", "YBC", "71187", "49.07N", "068.12W", "22", "CA"],
  ["QC BARRAGE ANGLIERS", "CWRC", "WRC", "71820", "47.33N", "079.14W", "266", "CA"],
  ["QC BEAUCEVILLE", "CWHV", "WHV", "71323", "46.12N", "070.46W", "229", "CA"],
  ["QC BEAUPORT", "CXBO", "XBO", "71578", "46.50N", "071.12W", "100", "CA"]]

/-- `STATIONS` (database/stations.py 4517-4616). -/
noncomputable def stations45 : List StationRow := rows! [
  ["QC BLANC SABLON ARP", "CYBX", "YBX", "71808", "51.27N", "057.10W", "35", "CA"],
  ["QC BONNARD(AUTO)", "CWKD", "WKD", "71383", "50.44N", "071.01W", "497", "CA"],
  ["QC BORDER (MAPS)", "CWTB", "WTB", "71901", "55.19N", "063.13W", "479", "CA"],
  ["QC CAP CHAT (MAPS)", "CWSG", "WSG", "71428", "49.07N", "066.39W", "5", "CA"],
  ["QC CAP D'ESPOIR (MA", "CWRZ", "WRZ", "71429", "48.25N", "064.19W", "16", "CA"],
  ["QC CAP MADELEINE(MA", "CWSF", "WSF", "71425", "49.15N", "065.19W", "29", "CA"],
  ["QC CAP TOURMENTE", "CWTN", "WTN", "71384", "47.04N", "070.47W", "6", "CA"],
  ["QC CHAMOUCHOUANE AU", "CWEE", "WEE", "71523", "49.16N", "073.20W", "305", "CA"],
  ["QC CHAPAIS", "CWUK", "None", "71824", "49.49N", "074.59W", "381", "CA"],
  ["QC CHARLEVOIX (MRX)", "CWIS", "WIS", "71319", "47.17N", "070.38W", "719", "CA"],
  ["QC CHARLEVOIX AIRPO", "CYML", "YML", "None", "47.36N", "070.13W", "298", "CA"],
  ["QC CHATHAM BROWNBRG", "CMBB", "None", "None", "45.37N", "074.25W", "75", "CA"],
  ["QC CHEVERY (MARS)", "CWDM", "WDM", "71814", "50.28N", "059.37W", "6", "CA"],
  ["QC CHIBOUGAMAU CHAP", "CYMT", "YMT", "71822", "49.46N", "074.31W", "387", "CA"],
  ["QC CHUTE DES PASSES", "CWDT", "WDT", "71522", "49.53N", "071.15W", "399", "CA"],
  ["QC DESCHAMBAULTS", "CWHQ", "WHQ", "71389", "46.41N", "071.58W", "55", "CA"],
  ["QC EASTMAIN RIVER A", "CZEM", "ZEM", "None", "52.13N", "078.31W", "7", "CA"],
  ["QC FRELIGHSBURG", "CWFQ", "WFQ", "71373", "45.02N", "072.49W", "152", "CA"],
  ["QC GASPE AIRPORT", "CYGP", "YGP", "71188", "48.46N", "064.28W", "33", "CA"],
  ["QC GATINEAU AIRPORT", "CYND", "YND", "None", "45.31N", "075.34W", "64", "CA"],
  ["QC HARRINGTON", "CMHN", "None", "None", "45.48N", "074.39W", "168", "CA"],
  ["QC HAVRE ST PIERRE", "CYGV", "YGV", "71313", "50.16N", "063.37W", "33", "CA"],
  ["QC HEATH POINT (MAP", "CWHP", "None", "71423", "49.04N", "061.42W", "4", "CA"],
  ["QC HIGH FALLS CS (A", "CXHF", "XHF", "71391", "45.50N", "075.39W", "190", "CA"],
  ["QC ICE AUX GRUES", "CWIG", "WIG", "None", "47.04N", "070.32W", "18", "CA"],
  ["QC ICE AUX PERROQUE", "CWQR", "WQR", "71375", "50.13N", "064.13W", "9", "CA"],
  ["QC ILE BICQUETTE", "CWQO", "WQO", "71385", "48.25N", "068.54W", "1", "CA"],
  ["QC ILE CHARRON", "CWVZ", "WVZ", "None", "45.35N", "073.30W", "12", "CA"],
  ["QC ILE D'ORLEANS(AU", "CWER", "WER", "71424", "47.00N", "070.49W", "5", "CA"],
  ["QC ILE ROUGE(MAPS)", "CWAF", "WAF", "71426", "48.04N", "069.32W", "5", "CA"],
  ["QC ILES DE LA MADEL", "CYGR", "YGR", "71709", "47.25N", "061.46W", "10", "CA"],
  ["QC ILES-DE-LA-MADEL", "CWGR", "WGR", "71710", "47.25N", "061.48W", "60", "CA"],
  ["QC INUKJUAK", "None", "None", "71907", "58.27N", "078.05W", "3", "CA"],
  ["QC INUKJUAK", "CYPH", "YPH", "71306", "58.28N", "078.05W", "25", "CA"],
  ["QC IVUJIVIK ARPT(SA", "CYIK", "YIK", "None", "62.25N", "077.56W", "42", "CA"],
  ["QC JONQUIERE(AUTO)", "CWJO", "WJO", "71617", "48.26N", "071.09W", "133", "CA"],
  ["QC KANGIKSUALUJJUAQ", "CYLU", "YLU", "None", "58.43N", "065.58W", "60", "CA"],
  ["QC KANGIQSUJUAQ(SAW", "CYKG", "YKG", "None", "61.34N", "071.55W", "151", "CA"],
  ["QC KANGIRSUK (SAWR)", "CYAS", "YAS", "None", "60.01N", "070.00W", "117", "CA"],
  ["QC KUUJJUAQ AIRPORT", "CYVP", "YVP", "71906", "58.07N", "068.25W", "60", "CA"],
  ["QC KUUJJUARAPIK ARP", "CYGW", "YGW", "71905", "55.16N", "077.46W", "12", "CA"],
  ["QC L'ACADIE", "CWIZ", "WIZ", "71372", "45.17N", "073.20W", "45", "CA"],
  ["QC L'ASSOMPTION", "CWEW", "WEW", "71524", "45.49N", "073.26W", "21", "CA"],
  ["QC LA BAIE", "CWUX", "WUX", "71388", "48.18N", "070.56W", "135", "CA"],
  ["QC LA GRANDE III(SA", "CYAD", "YAD", "None", "53.34N", "076.12W", "233", "CA"],
  ["QC LA GRANDE IV ARP", "CYAH", "YAH", "71823", "53.45N", "073.40W", "306", "CA"],
  ["QC LA GRANDE RIVIER", "CYGL", "YGL", "71827", "53.37N", "077.42W", "195", "CA"],
  ["QC LA POCATIERE", "CWST", "None", "71713", "47.21N", "070.01W", "31", "CA"],
  ["QC LA TUQUE", "CWDQ", "WDQ", "71378", "47.25N", "072.47W", "169", "CA"],
  ["QC LAC EON (MAPS)", "CWEO", "WEO", "71421", "51.52N", "063.16W", "561", "CA"],
  ["QC LAC MEMPHREMAGOG", "CWTT", "WTT", "None", "45.16N", "072.10W", "209", "CA"],
  ["QC LAC ST PIERRE (A", "CWBS", "WBS", "71198", "46.11N", "072.55W", "16", "CA"],
  ["QC LATERRIERE", "CXLT", "None", "71040", "48.18N", "071.08W", "162", "CA"],
  ["QC LAUZON", "CWLU", "WLU", "None", "46.50N", "071.10W", "20", "CA"],
  ["QC LENNOXVILLE", "CWQH", "WQH", "71611", "45.22N", "071.49W", "181", "CA"],
  ["QC LOCHABER", "CMHB", "None", "None", "45.38N", "075.12W", "105", "CA"],
  ["QC LONGUE PT DE MON", "CWBT", "WBT", "71512", "50.16N", "064.14W", "11", "CA"],
  ["QC MANIWAKI", "CWMJ", "WMJ", "71721", "46.16N", "076.00W", "200", "CA"],
  ["QC MANIWAKI", "CWMW", "WMW", "71722", "46.22N", "075.58W", "170", "CA"],
  ["QC MATAGAMI AIRPORT", "CYNM", "YNM", "71821", "49.46N", "077.49W", "281", "CA"],
  ["QC MCGILL RADAR", "CWMN", "None", "None", "45.25N", "073.56W", "63", "CA"],
  ["QC MC TAVISH (AUT)", "CWTA", "WTA", "71612", "45.30N", "073.35W", "63", "CA"],
  ["QC MISTOOK (AUT)", "CWIX", "WIX", "71381", "48.36N", "071.43W", "113", "CA"],
  ["QC MONT JOLI AIRPOR", "CYYY", "YYY", "71718", "48.36N", "068.13W", "52", "CA"],
  ["QC MONT ORFORD", "CWHY", "WHY", "71618", "45.19N", "072.15W", "851", "CA"],
  ["QC MONTREAL EST", "CWPQ", "WPQ", "71675", "45.38N", "073.30W", "6", "CA"],
  ["QC MONTREAL/DORVAL", "CYUL", "YUL", "71627", "45.28N", "073.44W", "36", "CA"],
  ["QC MONTREAL/DORVAL", "CWTQ", "None", "71183", "45.28N", "073.45W", "32", "CA"],
  ["QC MONTREAL/MIRABEL", "CYMX", "YMX", "71626", "45.40N", "074.01W", "82", "CA"],
  ["QC NATASHQUAN AIRP", "CYNA", "YNA", "71813", "50.10N", "061.49W", "11", "CA"],
  ["QC NEMISCAU ARPT(SA", "CYHH", "YHH", "None", "51.42N", "076.07W", "244", "CA"],
  ["QC NEW CARLISLE1", "CWOC", "WOC", "71619", "48.01N", "065.19W", "47", "CA"],
  ["QC NICOLET (AUTOB)", "CWNQ", "WNQ", "71723", "46.13N", "072.39W", "10", "CA"],
  ["QC NORMANDIN", "CWOD", "WOD", "71379", "48.51N", "072.33W", "137", "CA"],
  ["QC ONATCHIWAY", "CWXC", "WXC", "71387", "48.53N", "071.02W", "300", "CA"],
  ["QC PARC DES LAURENT", "CWPD", "WPD", "71382", "47.34N", "071.13W", "803", "CA"],
  ["QC PARENT (MARS)", "CWPK", "WPK", "71726", "47.55N", "074.37W", "442", "CA"],
  ["QC POINTE DES MONTS", "CWTG", "WTG", "71427", "49.19N", "067.22W", "5", "CA"],
  ["QC POINTE NOIRES CS", "CWIP", "WIP", "71390", "50.10N", "066.26W", "25", "CA"],
  ["QC PORT MENIER (MAR", "CWBY", "WBY", "71810", "49.49N", "064.17W", "53", "CA"],
  ["QC PUVIRGNITUQ", "CYPX", "YPX", "None", "60.02N", "077.16W", "23", "CA"],
  ["QC POINTE CLAVEAU", "CWQV", "WQV", "71189", "48.16N", "070.07W", "1", "CA"],
  ["QC QUAQTAQ AIRPORT", "CYHA", "YHA", "71904", "61.02N", "069.37W", "30", "CA"],
  ["QC QUEBEC", "CYQB", "YQB", "71714", "46.47N", "071.22W", "73", "CA"],
  ["QC RAWDON", "CMWD", "None", "None", "46.01N", "073.49W", "210", "CA"],
  ["QC RIVIERE DU LOUP", "CWNH", "None", "71715", "47.47N", "069.32W", "148", "CA"],
  ["QC ROBERVAL AIRPORT", "CYRJ", "YRJ", "71728", "48.31N", "072.16W", "179", "CA"],
  ["QC ROUYN AIRPORT", "CYUY", "YUY", "None", "48.12N", "078.49W", "301", "CA"],
  ["QC SAINT HUBERT ARP", "CYHU", "YHU", "71371", "45.31N", "073.25W", "27", "CA"],
  ["QC SAINT LOUIS", "CMLI", "None", "None", "45.52N", "073.00W", "31", "CA"],
  ["QC SALLIUT ARPT (SA", "CYZG", "YZG", "None", "62.10N", "075.40W", "226", "CA"],
  ["QC SCHEFFERVILLE AR", "CYKL", "YKL", "71828", "54.47N", "066.49W", "521", "CA"],
  ["QC SEPT ILES AIRPOR", "CYZV", "YZV", "71811", "50.13N", "066.16W", "55", "CA"],
  ["QC SEPT ILES", "CXZV", "None", "None", "50.13N", "066.15W", "52", "CA"],
  ["QC SHAWINIGAN", "CXSH", "XSH", "71370", "46.35N", "072.44W", "110", "CA"],
  ["QC SHERBROOKE", "CYSC", "YSC", "71610", "45.26N", "071.41W", "241", "CA"],
  ["QC ST ANICET", "CWBZ", "WBZ", "71712", "45.07N", "074.16W", "49", "CA"],
  ["QC ST FOY/U LAVAL", "CWJB", "WJB", "71392", "46.47N", "071.16W", "91", "CA"],
  ["QC ST GEDEON", "CWIU", "WIU", "None", "48.29N", "071.47W", "103", "CA"],
  ["QC ST HENRI", "CWIA", "WIA", "None", "48.39N", "071.51W", "103", "CA"]]

/-- `STATIONS` (database/stations.py 4617-4716). -/
noncomputable def stations46 : List StationRow := rows! [
  ["QC ST JOVITE (AUTOB", "CWJT", "WJT", "71376", "46.04N", "074.34W", "239", "CA"],
  ["QC ST CLOTHILDE (A", "CWIT", "WIT", "71614", "45.10N", "073.40W", "52", "CA"],
  ["QC STE ANNE DE BELL", "CWVQ", "WVQ", "71377", "45.25N", "073.55W", "39", "CA"],
  ["QC TASIUJAQ A", "CYTQ", "YTQ", "None", "58.40N", "069.57W", "31", "CA"],
  ["QC TEMISCAMINQUE", "CWBA", "None", "71732", "46.43N", "079.06W", "181", "CA"],
  ["QC TROIS RIVIERES", "CWTY", "WTY", "71724", "46.21N", "072.31W", "6", "CA"],
  ["QC TROIS RIVIERES", "CYRQ", "None", "None", "46.21N", "072.41W", "61", "CA"],
  ["QC UMIUJAQ", "CYMU", "YMU", "None", "56.31N", "076.31W", "71", "CA"],
  ["QC VAL D'OR AIRPORT", "CYVO", "YVO", "71725", "48.04N", "077.46W", "337", "CA"],
  ["QC VALCARTIER AIRPO", "CYOY", "YOY", "71716", "46.53N", "071.30W", "168", "CA"],
  ["QC VARENNES", "CWHM", "WHM", "71184", "45.43N", "073.22W", "192", "CA"],
  ["QC VILLEROY RADAR", "CWVY", "WVY", "71616", "46.27N", "071.55W", "108", "CA"],
  ["QC WASKAGANISH AIRP", "CYKQ", "YKQ", "None", "51.28N", "078.45W", "23", "CA"],
  ["QC WEMINDJI", "CYNC", "YNC", "None", "53.01N", "078.49W", "14", "CA"],
  ["QC INUKJUAK", "CWPH", "WPH", "None", "58.27N", "078.07W", "253", "CA"],
  ["QC VALCARTIER", "CWQG", "WQG", "71151", "46.53N", "071.30W", "168", "CA"],
  ["QC VAL D IRENE RADR", "CXAM", "None", "None", "48.29N", "067.36W", "583", "CA"],
  ["QC BEAUHARNOS", "CMBR", "None", "None", "45.19N", "073.55W", "22", "CA"],
  ["QC ST CONSTANT", "CMCT", "None", "None", "45.20N", "073.35W", "39", "CA"],
  ["QC COVEY HILL", "CMCW", "None", "None", "45.01N", "073.52W", "262", "CA"],
  ["QC FORET MONTMORENC", "CMFM", "None", "71212", "47.19N", "071.09W", "672", "CA"],
  ["QC GRANBY", "CMGB", "None", "None", "45.22N", "072.46W", "86", "CA"],
  ["QC HOWICK", "CMHW", "None", "None", "45.10N", "073.52W", "42", "CA"],
  ["QC L ARTIFICE", "CMLA", "None", "None", "45.04N", "073.50W", "61", "CA"],
  ["QC PIEDMONT", "CMPD", "None", "None", "45.53N", "074.06W", "175", "CA"],
  ["QC S POLYCARPE71306", "CMPL", "None", "None", "45.18N", "074.18W", "56", "CA"],
  ["QC ROUGEMONT", "CMRG", "None", "None", "45.25N", "073.03W", "54", "CA"],
  ["QC RIGAUD", "CMRI", "None", "71305", "45.29N", "074.18W", "30", "CA"],
  ["QC RUSSELTOWN", "CMRU", "None", "None", "45.03N", "073.48W", "65", "CA"],
  ["QC RUISSEAU CRANB", "CMRY", "None", "None", "45.07N", "073.41W", "59", "CA"],
  ["QC ST SABINE", "CMSB", "None", "None", "45.13N", "073.01W", "49", "CA"],
  ["QC ST CELESTIN", "CMSC", "None", "None", "46.12N", "072.27W", "55", "CA"],
  ["QC ST M-D-NAPIERVIL", "CMSX", "None", "None", "45.11N", "073.37W", "59", "CA"],
  ["QC ST CHRYSOSTOME", "CMYT", "None", "None", "45.08N", "073.46W", "55", "CA"],
  ["SK ASSINIBOIA ARPT", "CWJI", "WJI", "71487", "49.43N", "105.55W", "724", "CA"],
  ["SK BROADVIEW", "CWIK", "WIK", "71861", "50.22N", "102.35W", "602", "CA"],
  ["SK BRATTS LAKE", "CXBK", "XBK", "71569", "50.12N", "104.42W", "580", "CA"],
  ["SK BROADVIEW CS", "CWXU", "None", "71737", "50.23N", "102.41W", "600", "CA"],
  ["SK BUFFALO NARROWS", "CWVT", "WVT", "71077", "55.49N", "108.25W", "434", "CA"],
  ["SK BUFFALO NARROWS", "CYVT", "YVT", "None", "55.49N", "108.25W", "434", "CA"],
  ["SK CANDLE LAKE", "CWLZ", "WLZ", "71146", "53.44N", "105.16W", "503", "CA"],
  ["SK CLUFF LAKE", "CXXX", "None", "71073", "58.23N", "109.31W", "339", "CA"],
  ["SK CORONACH SPC", "CWAQ", "WAQ", "71516", "49.03N", "105.29W", "756", "CA"],
  ["SK CYPRESS HILLS PA", "CWVP", "WVP", "71139", "49.38N", "109.31W", "1271", "CA"],
  ["SK EASTEND CYPRESS", "CWEH", "WEH", "71131", "49.25N", "108.58W", "1078", "CA"],
  ["SK ELBOW (MARS)", "CWOK", "WOK", "71450", "51.07N", "106.34W", "595", "CA"],
  ["SK ESTEVAN AIRPORT", "CYEN", "YEN", "71862", "49.13N", "102.58W", "581", "CA"],
  ["SK HUDSON BAY", "CYHB", "YHB", "71868", "52.49N", "102.19W", "358", "CA"],
  ["SK INDIAN HEAD CDA", "CWBD", "WBD", "71194", "50.33N", "103.39W", "582", "CA"],
  ["SK JIMMY LAKE", "CWHN", "WHN", "None", "54.53N", "109.58W", "636", "CA"],
  ["SK KEY LAKE", "CYKJ", "YKJ", "71488", "57.15N", "105.37W", "509", "CA"],
  ["SK KINDERSLEY", "CYKY", "YKY", "71129", "51.31N", "109.10W", "694", "CA"],
  ["SK LA RONGE AIRPORT", "CYVC", "YVC", "71922", "55.09N", "105.16W", "379", "CA"],
  ["SK LA RONGE AIRPORT", "CXOX", "XOX", "71586", "55.09N", "105.16W", "379", "CA"],
  ["SK LEADER ARPT (AUT", "CWJX", "WJX", "71459", "50.53N", "109.30W", "672", "CA"],
  ["SK LUCKY LAKE (AUTO", "CWLE", "WLE", "71455", "50.57N", "107.09W", "665", "CA"],
  ["SK MAPLECREEK (AUTO", "CWMQ", "WMQ", "71453", "49.54N", "109.28W", "767", "CA"],
  ["SK MEADOW LAKE AIRP", "CYLJ", "YLJ", "71125", "54.07N", "108.31W", "480", "CA"],
  ["SK MELFORT (AUTOB)", "CWFF", "WFF", "71456", "52.49N", "104.35W", "490", "CA"],
  ["SK MOOSE JAW (CAN M", "CYMJ", "YMJ", "71864", "50.19N", "105.32W", "577", "CA"],
  ["SK MOOSE JAW", "CZMJ", "None", "None", "50.20N", "105.34W", "577", "CA"],
  ["SK NIPAWIN AIRPORT", "CYBU", "YBU", "71130", "53.19N", "104.00W", "374", "CA"],
  ["SK NIPAWIN", "CWBU", "None", "None", "53.20N", "104.01W", "373", "CA"],
  ["SK NORTH BATTLEFORD", "CYQW", "YQW", "71876", "52.46N", "108.15W", "548", "CA"],
  ["SK PRINCE ALBERT AR", "CYPA", "YPA", "71869", "53.13N", "105.40W", "428", "CA"],
  ["SK REGINA AIRPORT", "CYQR", "YQR", "71863", "50.26N", "104.40W", "577", "CA"],
  ["SK REGINA UNIVERSIT", "CWDJ", "WDJ", "71514", "50.24N", "104.35W", "573", "CA"],
  ["SK ROCKGLEN (MARS)", "CWKO", "WKO", "71135", "49.10N", "105.58W", "917", "CA"],
  ["SK ROSETOWN EAST (A", "CWRJ", "WRJ", "71510", "51.34N", "107.55W", "586", "CA"],
  ["SK SASKATOON AIRPOR", "CYXE", "YXE", "71866", "52.10N", "106.42W", "504", "CA"],
  ["SK SOUTHEND (AUTOB)", "CWJH", "WJH", "71451", "56.19N", "103.16W", "344", "CA"],
  ["SK SPIRITWOOD WEST", "CWSR", "WSR", "71133", "53.22N", "107.32W", "584", "CA"],
  ["SK STONY RAPIDS ARP", "CYSF", "YSF", "71132", "59.15N", "105.49W", "250", "CA"],
  ["SK SWIFT CURREN", "CYYN", "YYN", "71870", "50.16N", "107.40W", "818", "CA"],
  ["SK URANIUM CITY(MAR", "CWDC", "WDC", "71076", "59.34N", "108.28W", "318", "CA"],
  ["SK VAL MARIE SE(AUT", "CWVN", "WVN", "71137", "49.04N", "107.34W", "785", "CA"],
  ["SK WATROUS EAST (AU", "CWIW", "WIW", "71511", "51.40N", "105.24W", "526", "CA"],
  ["SK WEYBURN (AUTOB)", "CWWF", "WWF", "71452", "49.42N", "103.48W", "589", "CA"],
  ["SK WYNYARD (AUT)", "CWOY", "WOY", "71865", "51.46N", "104.12W", "560", "CA"],
  ["SK YORKTON AIRPORT", "CYQV", "YQV", "71292", "51.16N", "102.28W", "498", "CA"],
  ["SK WALDRON VOR", "CYDR", "YDR", "None", "50.22N", "102.32W", "615", "CA"],
  ["SK CANADA ARTCC", "CZFD", "ZFD", "None", "59.19N", "107.11W", "131", "CA"],
  ["YT BEAVER CREEK ARP", "CYXQ", "YXQ", "None", "62.25N", "140.52W", "649", "CA"],
  ["YT BURWASH", "CYDB", "YDB", "71967", "61.22N", "139.03W", "801", "CA"],
  ["YT CARMACKS", "CXCK", "XCK", "71039", "62.07N", "136.12W", "540", "CA"],
  ["YT DAWSON AIRPORT", "CYDA", "YDA", "71966", "64.02N", "139.07W", "369", "CA"],
  ["YT FARO (MARS)", "CWUM", "WUM", "71949", "62.13N", "133.20W", "717", "CA"],
  ["YT FARO APT ARTCC", "CZFA", "ZFA", "None", "62.12N", "133.22W", "717", "CA"],
  ["YT HAINES JUNCTION", "CWHT", "WHT", "71505", "60.46N", "137.35W", "599", "CA"],
  ["YT HERSCHEL ISLAND", "CWJN", "None", "71501", "69.34N", "138.55W", "1", "CA"],
  ["YT KOMAKUK BEACH", "CWKM", "WKM", "71046", "69.36N", "140.10W", "13", "CA"],
  ["YT MARGARET LAKE", "CWZR", "None", "71977", "68.48N", "140.51W", "543", "CA"],
  ["YT MAYO AIRPORT", "CYMA", "None", "71965", "63.37N", "135.52W", "504", "CA"],
  ["YT OLD CROW AIRPORT", "CYOC", "YOC", "None", "67.34N", "139.49W", "251", "CA"],
  ["YT SHINGLE POINT AR", "CYUA", "YUA", "71968", "68.57N", "137.17W", "38", "CA"],
  ["YT STORM HILLS", "CWVH", "WVH", "71052", "68.54N", "133.56W", "261", "CA"],
  ["YT TESLIN (MARS)", "CWZW", "WZW", "None", "60.10N", "132.44W", "705", "CA"],
  ["YT TESLIN ARPT (AUT", "CYZW", "YZW", "71045", "60.10N", "132.45W", "705", "CA"],
  ["YT WATSON LAKE AIRP", "CYQH", "YQH", "71953", "60.07N", "128.49W", "690", "CA"],
  ["YT WATSON LAKE", "CXQH", "None", "71199", "60.07N", "128.49W", "690", "CA"]]

/-- `STATIONS` (database/stations.py 4717-4816). -/
noncomputable def stations47 : List StationRow := rows! [
  ["YT WHITEHORSE AIRPO", "CYXY", "YXY", "71964", "60.43N", "135.04W", "703", "CA"],
  ["ACAPULCO/G. ALVA", "MMAA", "ACA", "None", "16.45N", "099.45W", "5", "MX"],
  ["ACAPULCO/G. ALVA", "None", "None", "76805", "16.50N", "099.56W", "3", "MX"],
  ["AGUASCALIENTES", "MMAS", "AGU", "76571", "21.42N", "102.19W", "1863", "MX"],
  ["BAHIAS DE HUATUL", "MMBT", "HUX", "None", "15.46N", "096.16W", "143", "MX"],
  ["CAMPECHE/IGNACIO", "MMCP", "CPE", "76695", "19.49N", "090.30W", "5", "MX"],
  ["CANCUN", "MMUN", "CUN", "76595", "21.01N", "086.51W", "10", "MX"],
  ["CHETUMAL", "MMCM", "CTM", "76750", "18.30N", "088.20W", "12", "MX"],
  ["CHIHUAHUA INTL A", "MMCU", "CUU", "76225", "28.42N", "105.58W", "1372", "MX"],
  ["CIUDAD DEL CARM", "MMCE", "CME", "None", "18.39N", "091.48W", "2", "MX"],
  ["CIUDAD JUAREZ IN", "MMCS", "CJS", "None", "31.37N", "106.25W", "1171", "MX"],
  ["CHICHEN ITZA YU", "MMCT", "MCT", "None", "20.38N", "088.27W", "28", "MX"],
  ["CIUDAD OBREGON", "MMCN", "CEN", "None", "27.24N", "109.50W", "43", "MX"],
  ["CIUDAD VICTORIA", "MMCV", "CVM", "76491", "23.43N", "098.58W", "238", "MX"],
  ["COLIMA", "MMIA", "IMA", "76658", "19.16N", "103.34W", "723", "MX"],
  ["COZUMEL (CIV/MIL", "MMCZ", "CZM", "76648", "20.31N", "086.55W", "5", "MX"],
  ["CUERNAVACA", "MMCB", "CVJ", "76726", "18.50N", "099.16W", "1560", "MX"],
  ["CULIACAN (CITY)", "MMCL", "CUL", "76412", "24.46N", "107.28W", "39", "MX"],
  ["DEL BAJIO/LEON", "MMLO", "LEO", "76752", "21.00N", "101.28W", "1819", "MX"],
  ["GUADALAJARA", "MMGL", "GDL", "None", "20.31N", "103.19W", "1528", "MX"],
  ["GUADALAJARA", "None", "None", "76612", "20.40N", "103.23W", "1551", "MX"],
  ["DURANGO AIRPORT", "MMDO", "DGO", "76423", "24.07N", "104.31W", "1857", "MX"],
  ["GUAYMAS INTL ARP", "MMGM", "GYM", "None", "27.57N", "110.55W", "20", "MX"],
  ["EMPALME", "None", "None", "76256", "27.57N", "110.46W", "12", "MX"],
  ["HERMOSILLO INTL", "MMHO", "HMO", "76160", "29.05N", "111.03W", "184", "MX"],
  ["ISLA GUADALUPE", "MMGD", "GUD", "76151", "29.10N", "118.19W", "25", "MX"],
  ["ISLA SOCORRO", "MMSC", "SOC", "76723", "18.43N", "110.57W", "35", "MX"],
  ["IXTAPA ZIHUATANE", "MMZH", "ZIH", "None", "17.36N", "101.28W", "6", "MX"],
  ["IXTEPEC OX", "MMIT", "MIT", "None", "16.27N", "095.05W", "61", "MX"],
  ["LA PAZ INTL AIRP", "MMLP", "LAP", "None", "24.04N", "110.22W", "21", "MX"],
  ["LA PAZ", "None", "None", "76405", "24.10N", "110.18W", "18", "MX"],
  ["LORETO", "MMLT", "LTO", "76305", "26.01N", "111.20W", "15", "MX"],
  ["LOS MOCHIS AIRPO", "MMLM", "LMM", "None", "25.40N", "109.04W", "4", "MX"],
  ["MANZANILLO INTL", "MMZO", "ZLO", "None", "19.08N", "104.34W", "8", "MX"],
  ["MANZANILLO", "None", "None", "76654", "19.03N", "104.19W", "3", "MX"],
  ["MATAMOROS INTL", "MMMA", "MAM", "None", "25.46N", "097.31W", "8", "MX"],
  ["MAZATLAN/G. BUEL", "MMMZ", "MZT", "None", "23.10N", "106.16W", "10", "MX"],
  ["MAZATLAN", "None", "None", "76458", "23.12N", "106.25W", "4", "MX"],
  ["MERIDA INTL ARPT", "MMMD", "MID", "76644", "20.57N", "089.39W", "10", "MX"],
  ["MEXICALI INTL AR", "MMML", "MXL", "None", "32.37N", "115.14W", "22", "MX"],
  ["MEXICO CITY/LICE", "MMMX", "MEX", "None", "19.25N", "099.05W", "2238", "MX"],
  ["MEXICO CITY/TACU", "None", "None", "76679", "19.24N", "099.12W", "2313", "MX"],
  ["MINATITLAN", "MMMT", "MTT", "None", "18.06N", "094.34W", "40", "MX"],
  ["MONCLOVA", "MMMV", "MOV", "76342", "26.57N", "101.28W", "615", "MX"],
  ["MONTERREY INTL A", "MMAN", "MAN", "76394", "25.52N", "100.14W", "448", "MX"],
  ["MONTERREY/GEN MA", "MMMY", "MTY", "None", "25.46N", "100.05W", "387", "MX"],
  ["MORELIA NEW", "MMMM", "MLM", "76665", "19.51N", "101.01W", "1833", "MX"],
  ["NOGALES", "MMNG", "NOG", "None", "31.13N", "110.58W", "1222", "MX"],
  ["NUEVO LAREDO INT", "MMNL", "NLD", "None", "27.25N", "099.34W", "148", "MX"],
  ["OAXACA/XOXOCOTLA", "MMOX", "OAX", "76775", "17.00N", "096.43W", "1528", "MX"],
  ["PIEDRAS NEGRAS", "MMPG", "PNG", "76243", "28.39N", "100.31W", "250", "MX"],
  ["POCA RICA-TAJIN", "MMPA", "PAZ", "None", "20.30N", "097.28W", "142", "MX"],
  ["PUEBLA", "MMPB", "PBC", "76685", "19.10N", "098.22W", "2244", "MX"],
  ["PUERTO PENASCO", "MMPE", "None", "None", "31.21N", "113.31W", "9", "MX"],
  ["PALENQUE", "MMPQ", "None", "None", "17.32N", "091.59W", "61", "MX"],
  ["PUERTO ESCONDIDO", "MMPS", "PXM", "None", "15.52N", "097.04W", "88", "MX"],
  ["PUERTO VALLARTA", "MMPR", "PVR", "None", "20.40N", "105.15W", "6", "MX"],
  ["PUNTA PENASCO", "None", "PPE", "76061", "31.11N", "113.20W", "14", "MX"],
  ["QUERETARO", "MMQT", "QRO", "76625", "20.37N", "100.11W", "1813", "MX"],
  ["REYNOSA INTL ARP", "MMRX", "REX", "None", "26.01N", "098.13W", "39", "MX"],
  ["SALTILLO", "MMIO", "SLW", "76390", "25.33N", "100.56W", "1790", "MX"],
  ["SAN JOSE DEL CAB", "MMSD", "SJD", "None", "23.08N", "109.42W", "109", "MX"],
  ["CABO SAN LUCAS", "MMSL", "None", "None", "22.57N", "109.56W", "140", "MX"],
  ["SAN LUIS POTOSI", "MMSP", "SLP", "76539", "22.15N", "100.56W", "1903", "MX"],
  ["SANTA ROSALIA", "None", "SRL", "76253", "27.19N", "112.17W", "75", "MX"],
  ["TAMPICO/GEN FJ M", "MMTM", "TAM", "76548", "22.16N", "097.52W", "24", "MX"],
  ["TAPACHULA", "MMTP", "TAP", "None", "14.46N", "092.22W", "29", "MX"],
  ["TAPACHULA", "None", "None", "76903", "14.53N", "092.18W", "119", "MX"],
  ["TEPIC", "MMEP", "TPQ", "76556", "21.25N", "104.51W", "922", "MX"],
  ["TIJUANA INTL ARP", "MMTJ", "TIJ", "None", "32.32N", "116.58W", "152", "MX"],
  ["TOLUCA/JOSE MARI", "MMTO", "TLC", "None", "19.21N", "099.34W", "2576", "MX"],
  ["TORREON AIRPORT", "MMTC", "TRC", "76382", "25.34N", "103.24W", "1124", "MX"],
  ["TULANCINGO", "MMTL", "TCG", "76634", "20.04N", "098.22W", "2181", "MX"],
  ["TUXTLA GUTIERREZ", "MMTG", "TGZ", "76843", "16.34N", "093.02W", "528", "MX"],
  ["TUXTLA GUTIERREZ", "MMTB", "TGM", "None", "16.44N", "093.10W", "528", "MX"],
  ["URUAPAN/GEN RAYO", "MMPN", "UPN", "None", "19.23N", "102.01W", "1593", "MX"],
  ["VERACRUZ", "MMVR", "VER", "76692", "19.09N", "096.11W", "16", "MX"],
  ["VILLAHERMOSA", "MMVA", "VSA", "None", "18.00N", "092.49W", "13", "MX"],
  ["VILLAHERMOSA", "None", "None", "76743", "17.59N", "092.56W", "6", "MX"],
  ["ZACATECAS ARPT", "MMZC", "ZCL", "None", "22.54N", "102.41W", "2177", "MX"],
  ["ZACATECAS", "None", "None", "76526", "22.45N", "102.30W", "2265", "MX"],
  ["GUADALUPE/ZACATE", "MMZA", "None", "None", "22.45N", "102.30W", "2265", "MX"],
  ["TAPACHULA", "None", "None", "76904", "14.46N", "092.22W", "29", "MX"],
  ["GU AGANA", "PGUM", "None", "None", "13.29N", "144.48E", "91", "US"],
  ["GU MARIANA/ANDERSEN", "PGUA", "None", "91218", "13.34N", "144.55E", "187", "US"],
  ["GU TAGUAC", "PGAC", "None", "91212", "13.33N", "144.49E", "111", "US"],
  ["GU TAGUAC", "None", "None", "91217", "13.33N", "144.49E", "111", "US"],
  ["GU PEIPEINIMARU/TIN", "PGWT", "None", "91233", "14.59N", "145.37E", "82", "US"],
  ["UM PAGAN/N. MARIANA", "PAGP", "None", "99451", "18.00N", "145.25E", "2", "US"],
  ["UM SABANETTAN/TINIA", "PGNT", "None", "None", "15.00N", "145.37E", "80", "US"],
  ["UM WEST TINIAN", "PGTI", "None", "None", "15.00N", "145.37E", "82", "US"],
  ["UM JOHNSTON ISLAND", "PJON", "None", "91275", "16.44N", "169.31W", "5", "US"],
  ["UM WAKE ISLAND AIRF", "PWAK", "None", "91245", "19.17N", "166.39E", "4", "US"],
  ["UM CHRISTMAS/CASSID", "PLCH", "None", "91490", "01.59N", "157.21W", "3", "US"],
  ["UM FANNING ISLAND", "PLFA", "None", "91487", "03.51N", "159.22W", "5", "US"],
  ["UM PALMYRA/COOPER(A", "PLPA", "None", "91385", "05.52N", "162.03W", "2", "US"],
  ["UM ENIWETOK AUX AF", "PKMA", "None", "91250", "11.20N", "162.20E", "5", "US"],
  ["UM JARVIS ISLAND (A", "PLUR", "None", "91901", "00.22S", "160.01W", "2", "US"],
  ["MH MAJURO WSO AIRPO", "PKMJ", "None", "91376", "07.04N", "171.16E", "3", "US"],
  ["MH MAJURO ATOLL/NWS", "PKMR", "None", "None", "07.05N", "171.23E", "4", "US"]]

/-- `STATIONS` (database/stations.py 4817-4916). -/
noncomputable def stations48 : List StationRow := rows! [
  ["MH KWAJALEIN/BUCHOL", "PKWA", "None", "91366", "08.43N", "167.43E", "8", "US"],
  ["MH MILI/MARSHALL IS", "MLIP", "None", "99450", "06.00N", "172.00E", "0", "US"],
  ["UJAE ATOLL/MARSH", "UJAP", "None", "99449", "08.55N", "165.45E", "2", "RU"],
  ["ENEWETAK/MARSHAL", "ENIP", "None", "99448", "11.22N", "162.22E", "2", "NO"],
  ["WENO IS/CHUUK", "PTKK", "None", "91334", "07.28N", "151.51E", "2", "FM"],
  ["YAP ISLAND", "PTYA", "None", "91413", "09.29N", "138.05E", "17", "FM"],
  ["BABELTHUAP/KOROR", "PTRO", "None", "91408", "07.22N", "134.33E", "54", "FM"],
  ["KOROR PALAU/NWS", "PTKR", "None", "None", "07.20N", "134.29E", "30", "FM"],
  ["KOSRAE ISLAND", "PTSA", "None", "91356", "05.21N", "162.57E", "3", "FM"],
  ["POHNPEI NWS", "PTTP", "None", "91348", "06.58N", "158.13E", "2", "FM"],
  ["POHNPEI AIRPORT", "PTPN", "None", "None", "06.58N", "158.13E", "2", "FM"],
  ["SAIPAN/KOBLER", "PGSN", "None", "91232", "15.07N", "145.43E", "65", "FM"],
  ["ROTA INTL AIRP", "PGRO", "None", "91221", "14.11N", "145.15E", "185", "FM"],
  ["KOSRAE CAROLINES", "PTTK", "None", "91355", "05.20N", "162.56E", "2", "FM"],
  ["PR AGUADILLA/BORINQ", "TJBQ", "None", "78514", "18.30N", "067.08W", "72", "US"],
  ["PR FERN LUIS RIBAS", "TJIG", "None", "None", "18.27N", "066.06W", "3", "US"],
  ["PR MAYAGUEZ/EUGENIO", "TJMZ", "None", "None", "18.16N", "067.09W", "9", "US"],
  ["PR ROOSEVELT RD NAS", "TJNR", "None", "78535", "18.15N", "065.38W", "12", "US"],
  ["PR PONCE/MERCEDITA", "TJPS", "None", "None", "18.01N", "066.34W", "9", "US"],
  ["PR SAN JUAN/CAYEY", "TJUA", "JUA", "None", "18.07N", "066.05W", "852", "US"],
  ["PR SAN JUAN/WFO", "TJSJ", "SJU", "78526", "18.26N", "066.01W", "21", "US"],
  ["PROVIDENCIALES", "MBPV", "None", "None", "21.46N", "072.16W", "5", "BS"],
  ["ANDROS TOWN", "MYAF", "None", "None", "24.41N", "077.47W", "2", "BS"],
  ["KEMPS BAY/ANDR", "MYAK", "None", "78086", "24.04N", "077.32W", "4", "BS"],
  ["ALICE TOWN/S BI", "MYBS", "None", "78070", "25.42N", "079.16W", "3", "BS"],
  ["EXUMA INTL", "MYEF", "None", "None", "23.34N", "075.53W", "3", "BS"],
  ["GEORGE TOWN/EXU", "MYEG", "None", "78092", "23.30N", "075.46W", "3", "BS"],
  ["N ELEUTHERA", "MYEH", "None", "78075", "25.28N", "076.41W", "3", "BS"],
  ["ROCK SOUND(PRIVA", "MYER", "None", "None", "24.53N", "076.10W", "3", "BS"],
  ["FREEPORT INTL A", "MYGF", "None", "78062", "26.33N", "078.42W", "2", "BS"],
  ["GRAND BAHAMA AUX", "MYGM", "None", "None", "26.40N", "078.19W", "2", "BS"],
  ["WEST END INTL A", "MYGW", "None", "78061", "26.42N", "078.58W", "4", "BS"],
  ["MATTHEW TOWN/INA", "MYIG", "None", "78121", "20.56N", "073.40W", "4", "BS"],
  ["NASSAU INTL", "MYNN", "None", "78073", "25.02N", "077.28W", "3", "BS"],
  ["COCKBURN/SAN SAL", "MYSM", "None", "78088", "24.03N", "074.31W", "5", "BS"],
  ["TURKS ISLAND", "MBGT", "None", "78118", "21.26N", "071.09W", "4", "BS"],
  ["TURKS/MCCARTNEY", "MBJT", "None", "None", "21.26N", "071.09W", "4", "BS"],
  ["BARACOA ORIENTE", "MUBA", "None", "78268", "20.21N", "074.30W", "9", "CU"],
  ["BAYAMO", "MUBY", "None", "None", "20.24N", "076.37W", "64", "CU"],
  ["VENEZUELA/CIEGO", "MUCA", "None", "78346", "22.02N", "078.47W", "101", "CU"],
  ["CANAGUA", "MUCC", "None", "None", "22.28N", "078.20W", "4", "CU"],
  ["CIENFUEGOS(CIV/M", "MUCF", "None", "78244", "22.08N", "080.24W", "39", "CU"],
  ["CAMAGUEY/IGANCI", "MUCM", "None", "78255", "21.25N", "077.51W", "122", "CU"],
  ["COLON", "MUCO", "None", "78332", "22.40N", "080.55W", "35", "CU"],
  ["CAYO LARGO D SUR", "MUCL", "None", "None", "21.38N", "081.33W", "5", "CU"],
  ["SANTIAGO DE CUB", "MUCU", "None", "78264", "19.58N", "075.50W", "76", "CU"],
  ["GUANTANAMO", "MUGT", "None", "78267", "20.05N", "075.09W", "8", "CU"],
  ["GUANTANAMO BAY", "MUGM", "None", "78367", "19.54N", "075.12W", "17", "CU"],
  ["HAVANA/JOSE MAR", "MUHA", "None", "78224", "22.58N", "082.25W", "64", "CU"],
  ["HOLGUIN (CIV/MIL", "MUHG", "None", "None", "20.46N", "076.19W", "106", "CU"],
  ["MOA MILITARY", "MUMO", "None", "None", "20.39N", "074.55W", "5", "CU"],
  ["MANZANILLO", "MUMZ", "None", "78256", "20.17N", "077.06W", "60", "CU"],
  ["NUEVA GERONA (M", "MUNG", "None", "78221", "21.50N", "082.47W", "23", "CU"],
  ["PLAYA BARACOA", "MUPB", "None", "None", "23.02N", "082.35W", "31", "CU"],
  ["PINAR DEL RIO NO", "MUPR", "None", "78315", "22.25N", "083.40W", "37", "CU"],
  ["SAN ANTONIO BANO", "MUSA", "None", "None", "22.52N", "082.31W", "50", "CU"],
  ["SANTA CLARA", "MUSC", "None", "None", "22.30N", "079.57W", "103", "CU"],
  ["SAN JULIAN(MIL/C", "MUSJ", "None", "None", "22.06N", "084.09W", "30", "CU"],
  ["SANTA LUCIA", "MUSL", "None", "78312", "22.40N", "083.58W", "24", "CU"],
  ["SIGUANEA", "MUSN", "None", "None", "21.39N", "082.57W", "11", "CU"],
  ["TRINIDAD", "MUTD", "None", "78337", "21.46N", "079.58W", "54", "CU"],
  ["VARADERO", "MUVR", "None", "78229", "23.02N", "081.26W", "65", "CU"],
  ["LAS TUMAS", "MUVT", "None", "78357", "20.57N", "076.57W", "106", "CU"],
  ["KINGSTON/NORMAN", "MKJP", "None", "78397", "17.55N", "076.47W", "3", "JM"],
  ["SANGSTER/MONTEG", "MKJS", "None", "78388", "18.30N", "077.55W", "1", "JM"],
  ["GRND CAYMAN/OWEN", "MWCR", "None", "78384", "19.18N", "081.22W", "3", "KY"],
  ["GERRARD SMITH", "MWCB", "None", "None", "19.41N", "079.53W", "2", "KY"],
  ["GRAND CAYMAN", "MWCG", "None", "78383", "19.15N", "081.25W", "6", "KY"],
  ["LES CAYES", "MTCA", "None", "78447", "18.10N", "073.43W", "2", "HT"],
  ["CAP-HAITIEN", "MTCH", "None", "78409", "19.45N", "072.11W", "2", "HT"],
  ["PORT-AU-PRINCE", "MTPP", "None", "78439", "18.34N", "072.17W", "37", "HT"],
  ["CAMP CANARGUS", "CTPP", "None", "None", "18.34N", "072.19W", "38", "HT"],
  ["ARROYO BARRIL", "MDAB", "None", "None", "19.12N", "069.26W", "35", "DO"],
  ["BARAHONA", "MDBH", "None", "78482", "18.15N", "071.07W", "3", "DO"],
  ["EL CATEY INTL", "MDCY", "None", "None", "19.16N", "069.44W", "10", "DO"],
  ["CAUCEDO/DE LAS", "MDSD", "None", "78485", "18.25N", "069.40W", "18", "DO"],
  ["HERRERA", "MDHE", "None", "78484", "18.28N", "069.58W", "58", "DO"],
  ["DR BALAGUER INTL", "MDJB", "None", "None", "18.34N", "069.59W", "30", "DO"],
  ["LA ROMANA INT. A", "MDLR", "None", "None", "18.27N", "068.55W", "8", "DO"],
  ["MONTE CRISTI", "MDMC", "None", "78451", "19.52N", "071.39W", "2", "DO"],
  ["PUERTO PLATA IN", "MDPP", "None", "78457", "19.45N", "070.34W", "5", "DO"],
  ["PUNTA CANA", "MDPC", "None", "78479", "18.34N", "068.22W", "12", "DO"],
  ["SANTIAGO INTL A", "MDST", "None", "78460", "19.24N", "070.36W", "184", "DO"],
  ["SANTO DOMINGO", "TSDM", "None", "78486", "18.28N", "069.53W", "14", "DO"],
  ["CANEFIELD AIRPOR", "TDCF", "None", "78906", "15.20N", "061.24W", "5", "DM"],
  ["MELVILLE HALL AR", "TDPD", "None", "78905", "15.33N", "061.18W", "14", "DM"],
  ["ROSEAU", "TDPR", "None", "78907", "15.18N", "061.23W", "72", "DM"],
  ["CHARLOTTE AMALIE", "KSTT", "None", "None", "18.20N", "064.59W", "15", "VI"],
  ["CHRISTIANSTED", "TISX", "None", "78547", "17.42N", "064.48W", "19", "VI"],
  ["ST THOMAS (KING)", "TIST", "None", "78543", "18.20N", "064.59W", "7", "VI"],
  ["ST MAARTEN JULIA", "TNCM", "None", "78866", "18.03N", "063.07W", "4", "VI"],
  ["HATO AIR CURACAO", "TNCC", "None", "78988", "12.12N", "068.58W", "9", "VI"],
  ["WALL BLAKE", "TQPF", "None", "78846", "18.11N", "063.02W", "31", "VI"],
  ["BEEF ISL/ROADTOW", "TUPJ", "None", "78550", "18.26N", "064.31W", "4", "VI"],
  ["COOLIDGE/ANTIGUA", "TAPA", "None", "78862", "17.07N", "061.47W", "14", "AG"],
  ["LE LAMENTIN/MART", "TFFF", "None", "78925", "14.36N", "061.00W", "5", "MQ"],
  ["GUSTAVIA/ST.BART", "TFFJ", "None", "78894", "17.54N", "062.51W", "290", "GP"],
  ["LE RAIZET", "TFFR", "None", "78897", "16.16N", "061.32W", "11", "GP"],
  ["GOLDEN ROCKS/NEV", "TKPK", "None", "78858", "17.18N", "062.43W", "48", "KN"],
  ["CHARLESTOWN/NEWC", "TKPN", "None", "78859", "17.11N", "062.34W", "17", "AG"]]

/-- `STATIONS` (database/stations.py 4917-5016). -/
noncomputable def stations49 : List StationRow := rows! [
  ["VIGIE/ST LUCIA", "TLPC", "None", "78947", "14.01N", "061.00W", "2", "LC"],
  ["HEWANORRA INTL", "TLPL", "None", "78948", "13.45N", "060.57W", "3", "LC"],
  ["QUEEN BEATRIX", "TNCA", "None", "78982", "12.30N", "070.00W", "18", "AW"],
  ["BONAIRE/FLAMINGO", "TNCB", "None", "78990", "12.08N", "068.17W", "6", "AN"],
  ["FDR ARPT/ORANJES", "TNCE", "None", "78873", "17.28N", "062.58W", "39", "AN"],
  ["BLACKBURNE/PLYMO", "TRPM", "None", "None", "16.45N", "062.10W", "12", "AG"],
  ["J F MITCHELL ARP", "TVSB", "None", "None", "12.59N", "061.16W", "4", "VC"],
  ["CANOUAN AIRPORT", "TVSC", "None", "None", "12.42N", "061.21W", "4", "VC"],
  ["MUSTIQUE", "TVSM", "None", "None", "12.53N", "061.11W", "2", "VC"],
  ["UNION ISLAND", "TVSU", "None", "None", "12.36N", "061.25W", "15", "VC"],
  ["ARNOS VALE/ST V", "TVSV", "None", "78951", "13.08N", "061.12W", "9", "VC"],
  ["ANTIGUA/COOLIDG", "MCOL", "None", "78861", "17.07N", "061.46W", "10", "AG"],
  ["GRANTLEY ADAMS", "TBPB", "None", "78954", "13.04N", "059.29W", "52", "BB"],
  ["BRIDGETOWN CITY", "TBPO", "None", "None", "13.05N", "059.37W", "50", "BB"],
  ["POINT SALINES", "TGPY", "None", "78958", "12.00N", "061.47W", "7", "GD"],
  ["PEARLS AIRPORT", "MKPE", "None", "78956", "12.09N", "061.37W", "6", "GD"],
  ["JOHN OSBORNE APT", "TRPG", "None", "None", "16.47N", "062.12W", "168", "MS"],
  ["PIARCO INT AIRPT", "TTPP", "None", "78970", "10.35N", "061.21W", "15", "TT"],
  ["CROWN PT/SCARBOR", "TTCP", "None", "None", "11.09N", "060.51W", "8", "TT"],
  ["PORT OF SPAIN", "TTPS", "None", "78967", "10.39N", "061.31W", "2", "TT"],
  ["CROWN POINT AIRP", "TTPT", "None", "78962", "11.09N", "060.50W", "6", "TT"],
  ["BERMUDA NAS", "TXKF", "None", "78016", "32.22N", "064.41W", "6", "BM"],
  ["BELIZE INTL", "MZBZ", "None", "78583", "17.31N", "088.18W", "5", "BZ"],
  ["COBAN", "MGCB", "None", "None", "15.29N", "090.25W", "1316", "GT"],
  ["CHAMPERICO", "MGCP", "None", "None", "14.18N", "091.54W", "11", "GT"],
  ["ESQUIPULAS", "MGES", "None", "None", "14.34N", "089.19W", "965", "GT"],
  ["FLORES/SANTA EL", "MGFL", "None", "78615", "16.55N", "089.53W", "115", "GT"],
  ["AURORA ARP", "MGGI", "None", "None", "14.35N", "090.31W", "1489", "GT"],
  ["GUATEMALA/LA AU", "MGGT", "None", "78641", "14.34N", "090.32W", "1509", "GT"],
  ["HUEHUETENANGO", "MGHT", "None", "78627", "15.19N", "091.30W", "1901", "GT"],
  ["MELCHOR DE MENCO", "MGMM", "None", "None", "17.04N", "089.09W", "105", "GT"],
  ["PUERTO BARRIOS(", "MGPB", "None", "78637", "15.43N", "088.35W", "10", "GT"],
  ["POPTUN", "MGPP", "None", "78625", "16.19N", "089.25W", "500", "GT"],
  ["QUEZALTENANGO", "MGQZ", "None", "None", "14.52N", "091.30W", "2371", "GT"],
  ["RETALHULEU (MIL/", "MGRT", "None", "None", "14.32N", "091.42W", "200", "GT"],
  ["SAN JOSE (CIV/M", "MGSJ", "None", "78647", "13.55N", "090.50W", "9", "GT"],
  ["TIKAL INTL", "MGTK", "None", "None", "16.55N", "089.52W", "128", "GT"],
  ["ZACAPA", "MGZA", "None", "None", "14.58N", "089.31W", "490", "GT"],
  ["AMAPALA/LOS PEL", "MHAM", "None", "78700", "13.16N", "087.39W", "5", "HN"],
  ["CATACAMAS", "MHCA", "None", "78714", "14.54N", "085.47W", "442", "HN"],
  ["ISLAS DEL CISNE", "MHIC", "None", "78501", "17.23N", "083.55W", "11", "HN"],
  ["ISLA DE GUANAJA", "MHNJ", "None", "78701", "16.27N", "085.54W", "15", "HN"],
  ["NUEVA OCOTEPEQUE", "MHNO", "None", "78718", "14.26N", "089.11W", "2", "HN"],
  ["LA CEIBA/GOLOSO", "MHLC", "None", "78705", "15.45N", "086.51W", "15", "HN"],
  ["LA ESPERANZA", "MHLE", "None", "78719", "14.19N", "088.09W", "1100", "HN"],
  ["LA MESA/PEDRO S", "MHLM", "None", "78708", "15.27N", "087.56W", "26", "HN"],
  ["PUERTO LEMPIRA", "MHPL", "None", "78711", "15.16N", "083.47W", "13", "HN"],
  ["ROATAN", "MHRO", "None", "78703", "16.19N", "086.32W", "5", "HN"],
  ["SOTO CANO AB", "MHSC", "None", "None", "14.22N", "087.37W", "626", "HN"],
  ["SANTA ROSA DE C", "MHSR", "None", "78717", "14.47N", "088.47W", "1079", "HN"],
  ["TEGUCIGALPA/TON", "MHTG", "None", "78720", "14.04N", "087.13W", "1004", "HN"],
  ["TELA", "MHTE", "None", "78706", "15.47N", "087.29W", "3", "HN"],
  ["YORO", "MHYR", "None", "78707", "15.08N", "087.07W", "670", "HN"],
  ["TRUJILLO", "MHTR", "None", "78704", "15.56N", "085.56W", "3", "HN"],
  ["CHOLUTECA", "MHCH", "None", "78724", "13.19N", "087.09W", "48", "HN"],
  ["TEGUCIGALPA", "TRPA", "None", "None", "14.03N", "087.13W", "1004", "HN"],
  ["ACAJUTLA/SONSON", "MSAC", "None", "78650", "13.34N", "089.50W", "15", "SV"],
  ["EL SALVADOR INT", "MSLP", "None", "78666", "13.26N", "089.03W", "25", "SV"],
  ["LA UNION", "MSLU", "None", "78672", "13.20N", "087.53W", "5", "SV"],
  ["ILOPANGO/S.SALV", "MSSS", "None", "78663", "13.42N", "089.07W", "616", "SV"],
  ["SANTA ANA", "MSSA", "None", "78655", "13.58N", "089.34W", "725", "SV"],
  ["SAN MIGUEL", "MSSM", "None", "78670", "13.26N", "088.07W", "80", "SV"],
  ["BLUEFIELDS", "MNBL", "None", "78745", "12.00N", "083.46W", "5", "NI"],
  ["MANAGUA/AUGUSTO", "MNMG", "None", "78741", "12.09N", "086.10W", "59", "NI"],
  ["PUERTO CABEZAS(", "MNPC", "None", "78730", "14.03N", "083.23W", "16", "NI"],
  ["CHINANDEGA", "MNCH", "None", "78739", "12.37N", "087.07W", "53", "NI"],
  ["JINOTEGA", "MNJG", "None", "78734", "13.05N", "086.01W", "985", "NI"],
  ["JUIGALPA", "MNJU", "None", "78735", "12.05N", "085.22W", "90", "NI"],
  ["LEON/FANOR URROZ", "MNLN", "None", "None", "12.25N", "086.54W", "100", "NI"],
  ["RIVAS", "MNRS", "None", "78733", "11.25N", "085.49W", "53", "NI"],
  ["CHACHARITA", "MRCH", "None", "None", "09.59N", "084.47W", "2", "CR"],
  ["LIBERIA/DANIEL ODUBER", "MRLB", "LIR", "78774", "10.36N", "085.33W", "82", "CR"],
  ["LIMON INTL AIRP", "MRLM", "LIO", "78767", "09.58N", "083.02W", "2", "CR"],
  ["NICOYA", "MRNC", "None", "78755", "10.09N", "085.27W", "120", "CR"],
  ["JUAN SANTAMARIA", "MROC", "SJO", "78762", "10.00N", "084.13W", "920", "CR"],
  ["PALMAR SUR", "MRPM", "None", "78772", "08.56N", "083.28W", "15", "CR"],
  ["PUNTARENAS", "MRPT", "None", "78760", "09.58N", "084.49W", "3", "CR"],
  ["TOBIAS BOLANOS", "MRPV", "SQY", "78764", "09.57N", "084.09W", "994", "CR"],
  ["BOCAS DEL TORO", "MPBO", "None", "None", "09.21N", "082.15W", "3", "PA"],
  ["DAVID/ENRIQUE M", "MPDA", "None", "78793", "08.24N", "082.26W", "27", "PA"],
  ["COLON", "MPEJ", "None", "78794", "09.21N", "079.52W", "8", "PA"],
  ["HOWARD AFB", "MPHO", "None", "78806", "08.55N", "079.36W", "13", "PA"],
  ["MARCOS GELABERT", "MPMG", "None", "None", "08.59N", "079.34W", "13", "PA"],
  ["PANAMA PACIFICO", "MPPA", "None", "None", "08.55N", "079.36W", "13", "PA"],
  ["SANTIAGO", "MPSA", "None", "78795", "08.04N", "080.56W", "83", "PA"],
  ["TOCUMEN", "MPTO", "None", "78792", "09.03N", "079.22W", "45", "PA"],
  ["ENRIQUE ADOLFO J", "MPCF", "None", "None", "09.20N", "079.52W", "8", "PA"],
  ["CAPTAIN MANUEL N", "MPCH", "None", "None", "09.27N", "082.31W", "6", "PA"],
  ["FT SHERMAN (ROCO", "MPFS", "None", "78801", "09.19N", "079.58W", "52", "PA"],
  ["JAQUE", "MPJE", "None", "None", "07.31N", "078.09W", "9", "PA"],
  ["ALBROOK AFS/BALB", "MPLB", "None", "None", "08.58N", "079.32W", "9", "PA"],
  ["LA PALMA", "MPLP", "None", "None", "08.24N", "078.07W", "10", "PA"],
  ["AUGUSTO VERGARA", "MPNU", "None", "None", "07.49N", "080.16W", "21", "PA"],
  ["PUERTO OBALDIA", "MPOA", "None", "None", "08.40N", "077.25W", "1", "PA"],
  ["RIO HATO", "MPRH", "None", "None", "08.22N", "080.07W", "31", "PA"],
  ["SCARLETT MARTINE", "MPSM", "None", "None", "08.21N", "080.08W", "0", "PA"],
  ["EL PORVENIR", "MPVR", "None", "78788", "09.34N", "078.58W", "2", "PA"],
  ["ARMENIA/EL EDEN", "SKAR", "None", "80211", "04.27N", "075.46W", "1219", "CO"],
  ["PUERTO ASIS", "SKAS", "None", "80372", "00.30N", "076.30W", "254", "CO"],
  ["EL BANCO/LAS FLO", "SKBC", "None", "80074", "09.04N", "073.58W", "34", "CO"]]

end Verif
