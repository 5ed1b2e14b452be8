import Verif.Model.Stations.Rows

/-
Rows of `STATIONS` (database/stations.py). Generated by tools/stations2lean.py.
-/

namespace Verif

/-- `STATIONS` (database/stations.py 9017-9116). -/
noncomputable def stations90 : List StationRow := rows! [
  ["AMAHAI", "WAPA", "None", "97722", "03.21S", "128.52E", "10", "ID"],
  ["LABUHA/TALIABU", "WAPH", "None", "97460", "01.37S", "124.32E", "3", "ID"],
  ["SAUMLAKI", "WAPI", "None", "97900", "07.58S", "131.18E", "24", "ID"],
  ["SANANA", "WAPN", "None", "97600", "02.06S", "125.58E", "2", "ID"],
  ["AMBON/PATTIMURA", "WAPP", "None", "97724", "03.42S", "128.04E", "12", "ID"],
  ["NAMLEA/BURU ISLA", "WAPR", "None", "97700", "03.15S", "127.04E", "20", "ID"],
  ["JUWATA", "WAQQ", "None", "None", "03.20N", "117.34E", "0", "ID"],
  ["JUANDA", "WARR", "None", "None", "07.22S", "112.47E", "2", "ID"],
  ["ACHMAD YANI", "WARS", "None", "None", "06.58S", "110.23E", "3", "ID"],
  ["ADI SUMARMO WIRY", "WARQ", "None", "None", "07.31S", "110.45E", "128", "ID"],
  ["FAK-FAK/TOREA", "WASF", "None", "97630", "02.52S", "132.15E", "130", "ID"],
  ["KAIMANA/UTAROM", "WASK", "None", "97760", "03.40S", "133.45E", "3", "ID"],
  ["MANOKWARI/RENDAN", "WASR", "None", "97530", "00.52S", "134.03E", "3", "ID"],
  ["SORONG/JEFMAN", "WASS", "None", "97502", "00.55S", "131.07E", "3", "ID"],
  ["SABANG/CUT BAU", "WIAA", "None", "96001", "05.52N", "095.19E", "126", "ID"],
  ["MENGGALA/ASTRA K", "WIAG", "None", "96273", "04.27S", "105.10E", "19", "ID"],
  ["CIBEUREM/TASIK(A", "WIAM", "None", "96801", "07.19S", "108.15E", "335", "ID"],
  ["MADIUN/ISWAHYUD", "WIAR", "None", "96881", "07.37S", "111.31E", "110", "ID"],
  ["MALANG/ABDUL (AF", "WIAS", "None", "96947", "07.58S", "112.42E", "526", "ID"],
  ["PAKANBARU/SIMPAN", "WIBB", "None", "96109", "00.28N", "101.27E", "31", "ID"],
  ["HANG NADIM", "WIDD", "None", "None", "01.07N", "104.07E", "38", "ID"],
  ["MINANGKABAU", "WIEE", "None", "None", "00.47S", "100.17E", "5", "ID"],
  ["HALIM PERDANAKUS", "WIHH", "None", "None", "06.15S", "106.53E", "25", "ID"],
  ["CURUG/BUDIARTO", "WIIA", "None", "96739", "06.18S", "106.34E", "46", "ID"],
  ["BANDUNG/HUSEIN(A", "WIIB", "None", "96781", "06.54S", "107.34E", "740", "ID"],
  ["JAKARTA/KEMAYOR", "WIID", "None", "96743", "06.09S", "106.50E", "5", "ID"],
  ["HALIM INTL(CIV/M", "WIIH", "None", "96747", "06.15S", "106.54E", "30", "ID"],
  ["SOEKARNO-HATTA I", "WIII", "None", "96749", "06.08S", "106.40E", "8", "ID"],
  ["ADISUCIPTO/JOGYA", "WIIJ", "None", "None", "07.46S", "110.25E", "107", "ID"],
  ["ADI SUTJIPTO", "WARJ", "None", "96853", "07.47S", "110.26E", "107", "ID"],
  ["KALIJATI", "WIIK", "None", "96773", "06.32S", "107.40E", "110", "ID"],
  ["CILACAP/TUNGGUL", "WIIL", "None", "96805", "07.43S", "109.01E", "6", "ID"],
  ["ACHMAD YANI (ARM", "WIIS", "None", "96839", "06.58S", "110.22E", "3", "ID"],
  ["TELUKBETUNG/BRAN", "WIIT", "None", "96295", "05.16S", "105.10E", "96", "ID"],
  ["HANG NADIM", "WIKB", "None", "None", "01.07N", "104.07E", "40", "ID"],
  ["TANJUNG PANDAN/B", "WIKD", "None", "96249", "02.45S", "107.45E", "44", "ID"],
  ["PANGKALPINANG", "WIKK", "None", "96237", "02.10S", "106.08E", "33", "ID"],
  ["TANJUNGPINANG/KI", "WIDN", "None", "96091", "00.55N", "104.31E", "18", "ID"],
  ["TANJUNGPINANG/KI", "WIKN", "None", "None", "00.55N", "104.31E", "18", "ID"],
  ["SINGKEP/DABO", "WIKS", "None", "96179", "00.28S", "104.34E", "31", "ID"],
  ["GUNUNG SITOLI/BI", "WIMB", "None", "96075", "01.10N", "097.42E", "6", "ID"],
  ["PADANG/TABING", "WIMG", "None", "96163", "00.52S", "100.20E", "3", "ID"],
  ["MEDAN/POLONIA (M", "WIMM", "None", "96035", "03.34N", "098.40E", "25", "ID"],
  ["SIBOLGA/PINANGSO", "WIMS", "None", "96073", "01.33N", "098.52E", "3", "ID"],
  ["TEBINGTINGGI/PAB", "WIMT", "None", "96039", "03.22N", "099.07E", "23", "ID"],
  ["SINGKAWANG II", "WIOI", "None", "96533", "01.04N", "109.40E", "38", "ID"],
  ["KETAPANG/RAHADI", "WIOK", "None", "96615", "01.51S", "109.58E", "9", "ID"],
  ["RANAI (MIL/CIV)", "WION", "None", "96147", "03.57N", "108.22E", "2", "ID"],
  ["PONTIANAK/SUPADI", "WIOO", "None", "96581", "00.09S", "109.24E", "3", "ID"],
  ["SINTANG/SUSILO(A", "WIOS", "None", "96559", "00.07N", "111.31E", "30", "ID"],
  ["JAMBI/SULTAN TAH", "WIPA", "None", "96195", "01.37S", "103.39E", "25", "ID"],
  ["KERINCI/DEPATI P", "WIPH", "None", "96207", "02.46S", "101.22E", "782", "ID"],
  ["DEPATI AMIR", "WIPK", "None", "None", "02.10S", "106.08E", "33", "ID"],
  ["BENGKULA/PADANGK", "WIPL", "None", "96253", "03.52S", "102.19E", "16", "ID"],
  ["PALEMBANG/SULTAN", "WIPP", "None", "96221", "02.53S", "104.42E", "10", "ID"],
  ["RENGAT/JAPURA", "WIPR", "None", "96171", "00.21S", "102.20E", "19", "ID"],
  ["MINANGKABAU INTL", "WIPT", "PDG", "None", "00.47S", "100.17E", "5", "ID"],
  ["TAPAK TUAN/TEUKU", "WITA", "None", "96045", "03.28N", "097.17E", "75", "ID"],
  ["MEULABOH/CUT NYA", "WITC", "None", "96015", "04.15N", "096.07E", "90", "ID"],
  ["LHOKSEUMAWE/MALI", "WITM", "None", "96009", "05.14N", "096.57E", "28", "ID"],
  ["BANDA ACEH/BLANG", "WITT", "None", "96011", "05.31N", "095.25E", "21", "ID"],
  ["BANJARMASIN/SYAM", "WRBB", "None", "None", "03.25S", "114.45E", "20", "ID"],
  ["SYAMSUDIN NOOR", "WAOO", "None", "96685", "03.27S", "114.46E", "20", "ID"],
  ["PANGKALAN BUN/IS", "WRBI", "None", "96645", "02.42S", "111.42E", "25", "ID"],
  ["KOTABARU/SETAGEN", "WRBK", "None", "96695", "03.23S", "116.13E", "18", "ID"],
  ["MUARATEWE/BERING", "WRBM", "None", "96595", "00.57S", "114.54E", "60", "ID"],
  ["PANARUNG/PALANGK", "WRBP", "None", "96655", "01.00S", "114.00E", "27", "ID"],
  ["ATAMBUA/HALIWEN", "WRKA", "None", "97374", "09.19S", "124.54E", "125", "ID"],
  ["MAUMERE/WAI OTI", "WRKC", "None", "97300", "08.37S", "122.15E", "3", "ID"],
  ["ENDEH/IPI", "WRKE", "None", "97290", "08.48S", "121.35E", "3", "ID"],
  ["KUPANG/EL TARI", "WRKK", "None", "97372", "10.10S", "123.40E", "108", "ID"],
  ["EL TARI", "WATT", "None", "None", "10.10S", "123.40E", "102", "ID"],
  ["LARANTUKA/GEWAYE", "WRKL", "None", "97310", "08.16S", "122.58E", "9", "ID"],
  ["ALOR/MALI/KALABA", "WRKM", "None", "97320", "08.13S", "124.34E", "12", "ID"],
  ["ROTE/BAA/LEKUNIK", "WRKR", "None", "97378", "10.43S", "123.04E", "1", "ID"],
  ["SABU/TARDAMU", "WRKS", "None", "97380", "10.30S", "121.49E", "26", "ID"],
  ["LONGBAWAN/JUVAI", "WRLB", "None", "96505", "03.43N", "115.40E", "550", "ID"],
  ["TANJUNG SELOR", "WRLG", "None", "96525", "02.51N", "117.19E", "50", "ID"],
  ["TANAHGROGOT", "WRLH", "None", "96639", "02.12S", "116.19E", "10", "ID"],
  ["TANJUNG REDEP/BE", "WRLK", "None", "96529", "02.07N", "117.27E", "26", "ID"],
  ["BALIKPAPAN/SEPIN", "WRLL", "None", "None", "01.16S", "116.54E", "3", "ID"],
  ["SEPINGGAN", "WALL", "None", "96633", "01.16S", "116.54E", "3", "ID"],
  ["TARAKAN/JUWATA", "WALR", "None", "96509", "03.19N", "117.34E", "6", "ID"],
  ["TARAKAN/JUWATA", "WRLR", "None", "None", "03.19N", "117.34E", "6", "ID"],
  ["SAMARINDA/TEMIND", "WRLS", "None", "96607", "00.37S", "117.09E", "230", "ID"],
  ["SANGKULIRANG", "WRLU", "None", "96577", "01.00N", "118.00E", "210", "ID"],
  ["AMPENAN/SELAPARA", "WRRA", "None", "97240", "08.31S", "116.04E", "3", "ID"],
  ["BIMA/MOHAMMAD SA", "WRRB", "None", "97270", "08.33S", "118.42E", "2", "ID"],
  ["BALI INTL/NGURAH", "WRRR", "None", "None", "08.45S", "115.10E", "1", "ID"],
  ["SUMBAWA BESAR", "WRRS", "None", "97260", "08.25S", "117.25E", "3", "ID"],
  ["WAINGAPU/MAU HAU", "WRRW", "None", "97340", "09.40S", "120.19E", "12", "ID"],
  ["SURABAYA/JUANDA", "WRSJ", "None", "96935", "07.22S", "112.46E", "3", "ID"],
  ["SURABAYA/PERAK", "WRSP", "None", "96933", "07.13S", "112.43E", "3", "ID"],
  ["SURAKARTA/ADISUM", "WRSQ", "None", "96845", "07.52S", "110.55E", "104", "ID"],
  ["SURABAYA/GEDANGA", "WRSS", "None", "96937", "07.13S", "112.43E", "3", "ID"],
  ["BINTULU/KALIMANT", "WBGB", "None", "96441", "03.07N", "113.01E", "5", "MY"],
  ["KUCHING (CIV/MIL", "WBGG", "None", "96413", "01.28N", "110.21E", "27", "MY"],
  ["MIRI/KALIMANTAN", "WBGR", "None", "96449", "04.19N", "113.58E", "18", "MY"],
  ["SIBU", "WBGS", "None", "96421", "02.16N", "111.59E", "8", "MY"],
  ["SIMANGGANG", "WBGY", "None", "None", "01.13N", "111.26E", "34", "MY"]]

/-- `STATIONS` (database/stations.py 9117-9216). -/
noncomputable def stations91 : List StationRow := rows! [
  ["KOTA KINABALU IN", "WBKK", "BKI", "96471", "05.55N", "116.02E", "3", "MY"],
  ["LABUAN (AFB)", "WBKL", "None", "96465", "05.17N", "115.15E", "30", "MY"],
  ["SANDAKAN/KALIMAN", "WBKS", "None", "96491", "05.54N", "118.04E", "13", "MY"],
  ["KUDAT", "WBKT", "None", "96477", "06.55N", "116.49E", "5", "MY"],
  ["TAWAU/KALIMANTAN", "WBKW", "None", "96481", "04.19N", "118.07E", "20", "MY"],
  ["BRUNEI INTL AIRP", "WBSB", "None", "96315", "04.55N", "114.55E", "15", "MY"],
  ["KLUANG", "WMAP", "None", "48672", "02.01N", "103.19E", "88", "MY"],
  ["MERSING", "WMAU", "None", "48674", "02.23N", "103.53E", "45", "MY"],
  ["SITIAWAN", "WMBA", "None", "48620", "04.13N", "100.42E", "8", "MY"],
  ["TIOMAN ISLAND", "WMBT", "None", "None", "02.49N", "104.10E", "5", "MY"],
  ["S ABDUL HALIM", "WMKA", "None", "48603", "06.12N", "100.24E", "5", "MY"],
  ["BUTTERWORTH(AUS-", "WMKB", "None", "48602", "05.28N", "100.22E", "4", "MY"],
  ["KOTA BHARU/SULTA", "WMKC", "None", "48615", "06.10N", "102.16E", "5", "MY"],
  ["KUANTAN (AFB)", "WMKD", "None", "48657", "03.46N", "103.13E", "16", "MY"],
  ["KERTEH", "WMKE", "None", "None", "04.32N", "103.26E", "5", "MY"],
  ["SIMPANG (AFB)", "WMKF", "None", "None", "03.07N", "101.42E", "34", "MY"],
  ["IPOH", "WMKI", "None", "48625", "04.34N", "101.05E", "39", "MY"],
  ["JOHORE BHARU/SEN", "WMKJ", "None", "48679", "01.37N", "103.40E", "40", "MY"],
  ["KUALA LUMPUR/SUB", "WMKK", "KUL", "48647", "02.45N", "101.43E", "22", "MY"],
  ["LANGKAWI INTL AR", "WMKL", "None", "48600", "06.19N", "099.43E", "7", "MY"],
  ["MALACCA", "WMKM", "None", "48665", "02.16N", "102.15E", "9", "MY"],
  ["KUALA TRENGGANU", "WMKN", "None", "48618", "05.22N", "103.05E", "6", "MY"],
  ["PENANG/BAYAN LEP", "WMKP", "None", "48601", "05.17N", "100.16E", "4", "MY"],
  ["PANGKOR ISLAND", "WMPA", "None", "None", "04.15N", "100.33E", "1", "MY"],
  ["KUALA LUMPUR SA", "WMSA", "None", "None", "03.08N", "101.33E", "27", "MY"],
  ["DILLI ARPT/TIMOR", "WPDL", "None", "97390", "08.34S", "125.34E", "6", "TP"],
  ["BAUCAU/TIMOR ISL", "WPEC", "None", "97395", "08.30S", "126.24E", "522", "TP"],
  ["OE-CUSSE/TIMOR I", "WPOC", "None", "97385", "09.11S", "124.22E", "5", "TP"],
  ["VIQUEQUE/TIMOR I", "WPVQ", "None", "97394", "08.52S", "126.22E", "47", "TP"],
  ["PAYA LEBAR", "WSAP", "None", "48694", "01.22N", "103.55E", "32", "SG"],
  ["SINGAPORE/TENGAH", "WSAT", "None", "48687", "01.22N", "103.43E", "12", "SG"],
  ["SINGAPORE/SELETA", "WSSL", "None", "48692", "01.25N", "103.52E", "14", "SG"],
  ["SINGAPORE/CHANGI", "WSSS", "SIN", "48698", "01.22N", "103.58E", "16", "SG"],
  ["HONIARA/HENDERSO", "AGGH", "None", "91520", "09.25S", "160.03E", "9", "SB"],
  ["SANTA CRUZ ISLAN", "AGGL", "None", "91541", "10.41S", "165.48E", "24", "SB"],
  ["MUNDA/NEW GEORGI", "AGGM", "None", "91503", "08.19S", "157.16E", "6", "SB"],
  ["MADANG AIRPORT", "AYMD", "None", "94014", "05.13S", "145.48E", "12", "PG"],
  ["PORT MORESBY INT", "AYPY", "None", "94035", "09.25S", "147.13E", "47", "PG"],
  ["RABAUL/NEW BRITA", "AYRB", "None", "94085", "04.13S", "152.10E", "9", "PG"],
  ["WEWAK INTL AIRPO", "AYWK", "None", "94004", "03.35S", "143.40E", "6", "PG"],
  ["GOROKA", "AYGA", "GKA", "None", "06.05S", "145.24E", "1587", "PG"],
  ["ALOTAU", "AYGN", "None", "None", "10.19S", "150.20E", "27", "PG"],
  ["MOUNT HAGEN", "AYMH", "HGU", "None", "05.50S", "144.18E", "1642", "PG"],
  ["MOMOTE MANUS IS", "AYMO", "None", "None", "02.04S", "147.25E", "4", "PG"],
  ["NADZAB", "AYNZ", "LAE", "None", "06.34S", "146.43E", "70", "PG"],
  ["VANIMO AIRPORT", "AYVN", "None", "None", "02.42S", "141.18E", "4", "PG"],
  ["ALBANY AIRPORT", "YABA", "None", "94802", "34.56S", "117.48E", "69", "AU"],
  ["AMBERLEY", "YAMB", "None", "None", "27.38S", "152.43E", "28", "AU"],
  ["ARGYLE AERO", "YARG", "None", "94217", "16.38S", "128.27E", "165", "AU"],
  ["AYERS ROCK", "YAYE", "None", "None", "25.11S", "130.59E", "496", "AU"],
  ["ARCHEFIELD/BRISB", "YBAF", "None", "94575", "27.34S", "153.00E", "18", "AU"],
  ["AMBERLEY (AUS-AF", "YBAM", "None", "94568", "27.37S", "152.43E", "31", "AU"],
  ["ALICE SPRINGS AR", "YBAS", "None", "94326", "23.48S", "133.54E", "541", "AU"],
  ["BRISBANE INTL AR", "YBBN", "None", "94578", "27.23S", "153.08E", "5", "AU"],
  ["COOLANGATTA AWS", "YBCG", "None", "94592", "28.10S", "153.30E", "6", "AU"],
  ["CAIRNS AIRPORT", "YBCS", "None", "94287", "16.52S", "145.45E", "7", "AU"],
  ["CHARLEVILLE ARPT", "YBCV", "None", "94510", "26.23S", "146.16E", "304", "AU"],
  ["BIRDSVILLE", "YBDV", "None", "95482", "25.54S", "139.21E", "47", "AU"],
  ["GLADSTONE", "YBGL", "None", "94380", "23.51S", "151.15E", "76", "AU"],
  ["BROKEN HILL", "YBHI", "None", "94691", "32.00S", "141.28E", "292", "AU"],
  ["HAMILTON ISLAND", "YBHM", "None", "None", "20.21S", "148.57E", "5", "AU"],
  ["LONGREACH AIRPOR", "YBLR", "None", "94346", "23.25S", "144.16E", "193", "AU"],
  ["MOUNT ISA AIRPOR", "YBMA", "None", "94332", "20.40S", "139.28E", "344", "AU"],
  ["MACKAY", "YBMK", "None", "94367", "21.07S", "149.13E", "31", "AU"],
  ["BALLINA BYRON G.", "YBNA", "None", "94596", "28.50S", "153.34E", "2", "AU"],
  ["OAKEY (ARMY/CIV)", "YBOK", "None", "94552", "27.25S", "151.43E", "407", "AU"],
  ["PROSPERINE AIRPO", "YBPN", "None", "94365", "20.30S", "148.33E", "25", "AU"],
  ["ROCKHAMPTON AIRP", "YBRK", "None", "94374", "23.22S", "150.28E", "14", "AU"],
  ["BROOME AIRPORT", "YBRM", "None", "94203", "17.56S", "122.13E", "9", "AU"],
  ["TOWNSVILLE(CIV/M", "YBTL", "None", "94294", "19.15S", "146.45E", "6", "AU"],
  ["BUNDABERG", "YBUD", "None", "94387", "24.54S", "152.19E", "82", "AU"],
  ["WEIPA", "None", "None", "94170", "12.41S", "141.55E", "58", "AU"],
  ["WEIPA CITY", "YBWP", "None", "94171", "12.37S", "141.52E", "12", "AU"],
  ["BARROW ISLAND", "YBWX", "None", "94304", "20.53S", "115.24E", "6", "AU"],
  ["CARNARVON", "YCAR", "None", "94300", "24.53S", "113.40E", "8", "AU"],
  ["CASINO AIRPORT", "YCAS", "None", "94573", "28.53S", "153.04E", "26", "AU"],
  ["COBAR AIRPORT", "YCBA", "None", "94710", "31.32S", "145.48E", "221", "AU"],
  ["COONABARABRAN", "YCBB", "None", "95728", "31.20S", "149.16E", "645", "AU"],
  ["COOBER PEDY", "YCBP", "None", "95458", "29.02S", "134.43E", "226", "AU"],
  ["CLONCURRY", "YCCY", "None", "94335", "20.40S", "140.30E", "570", "AU"],
  ["CEDUNA AIRPORT", "YCDU", "None", "94653", "32.07S", "133.42E", "15", "AU"],
  ["COONAMBLE", "YCNM", "None", "95718", "30.59S", "148.23E", "184", "AU"],
  ["COFFS HARBOUR", "YCFS", "None", "94791", "30.19S", "153.07E", "5", "AU"],
  ["CURTIN/DERBY", "YCIN", "None", "94204", "17.34S", "123.50E", "91", "AU"],
  ["COOMA SNOWY MTNS", "YCOM", "None", "94921", "36.18S", "148.58E", "941", "AU"],
  ["DERBY", "YDBY", "None", "94205", "17.22S", "123.40E", "7", "AU"],
  ["GOVE AIRPORT", "YDGV", "None", "94150", "12.16S", "136.49E", "54", "AU"],
  ["TENNANT CREEK AR", "YDTC", "None", "94238", "19.37S", "134.10E", "376", "AU"],
  ["YULARA AWS", "YDYL", "None", "94462", "25.10S", "130.58E", "493", "AU"],
  ["EMERALD ARPT", "YEML", "None", "94363", "24.34S", "148.11E", "190", "AU"],
  ["ESPERANCE ARPT", "YESP", "None", "95638", "33.41S", "121.49E", "143", "AU"],
  ["FORREST", "YFRT", "None", "None", "30.50S", "128.07E", "156", "AU"],
  ["GERALDTON", "YGEL", "None", "None", "28.48S", "114.42E", "37", "AU"],
  ["GRAFTON ARPT", "YGFN", "None", "95570", "29.46S", "153.02E", "34", "AU"],
  ["GLADSTONE", "YGLA", "None", "94381", "23.52S", "151.13E", "52", "AU"],
  ["GROOTE EYLANDT", "YGTE", "None", "94153", "13.58S", "136.27E", "14", "AU"],
  ["GRIFFITH ARPT", "YGTH", "None", "95704", "34.15S", "146.04E", "134", "AU"],
  ["HORN ISLAND", "YHID", "None", "None", "10.35S", "142.18E", "13", "AU"],
  ["HUGHENDEN ARPT", "YHUG", "None", "94343", "20.49S", "144.14E", "318", "AU"],
  ["KINGAROY ARPT", "YKRY", "None", "94549", "26.34S", "151.50E", "434", "AU"]]

/-- `STATIONS` (database/stations.py 9217-9316). -/
noncomputable def stations92 : List StationRow := rows! [
  ["LEIGH CREEK", "YLEC", "None", "None", "30.36S", "138.26E", "262", "AU"],
  ["LORD HOME ISLAND", "YLHI", "None", "None", "31.32S", "159.05E", "12", "AU"],
  ["LISMORE ARPT", "YLIS", "None", "94572", "28.50S", "153.16E", "11", "AU"],
  ["LONGREACH ARPT", "YLRE", "None", "None", "23.26S", "144.17E", "193", "AU"],
  ["MUDGEE ARPT", "YMDG", "None", "94727", "32.34S", "149.37E", "471", "AU"],
  ["MEEKATHARRA ARPT", "YMEK", "None", "None", "26.37S", "118.33E", "522", "AU"],
  ["MERIMBULA ARPT", "YMER", "None", "95929", "36.55S", "149.54E", "2", "AU"],
  ["MILDURA ARPT", "YMIA", "None", "None", "34.14S", "142.05E", "51", "AU"],
  ["MOREE ARPT", "YMOR", "None", "95527", "29.30S", "149.51E", "214", "AU"],
  ["MOUNT GAMBIER", "YMTG", "None", "None", "37.45S", "140.47E", "65", "AU"],
  ["NARRANDERA", "YNAR", "None", "95706", "34.42S", "146.31E", "145", "AU"],
  ["NARRABRI", "YNBR", "None", "95734", "30.19S", "149.50E", "240", "AU"],
  ["NORMANTON", "YNTN", "None", "94266", "17.41S", "141.04E", "22", "AU"],
  ["NEWMAN ARPT", "YNWN", "None", "94317", "23.25S", "119.48E", "525", "AU"],
  ["OLYMPIC DAM ARPT", "YOLD", "None", "95658", "30.29S", "136.53E", "105", "AU"],
  ["GOVE AIRPORT", "YPGV", "None", "None", "12.16S", "136.49E", "55", "AU"],
  ["JANDAKOT", "YPJT", "None", "None", "32.06S", "115.53E", "30", "AU"],
  ["PORT MACQUARIE", "YPMQ", "None", "94786", "31.26S", "152.52E", "4", "AU"],
  ["AVALON AIRPORT", "YMAV", "None", "None", "38.02S", "144.29E", "8", "AU"],
  ["ALBURY AIRPORT", "YMAY", "None", "94896", "36.04S", "146.56E", "171", "AU"],
  ["DEVONPORT EAST", "YMDV", "None", "94960", "41.10S", "146.22E", "47", "AU"],
  ["MELBOURNE/ESSEND", "YMEN", "None", "94864", "37.43S", "144.54E", "86", "AU"],
  ["EAST SALE (AUS-A", "YMES", "None", "94907", "38.06S", "147.07E", "8", "AU"],
  ["HOBART/TASMANIA", "YMHB", "None", "94975", "42.49S", "147.31E", "27", "AU"],
  ["LAUNCESTON AIRPO", "YMLT", "None", "94968", "41.31S", "147.11E", "178", "AU"],
  ["LAVERTON AERO", "YMLV", "None", "94865", "37.51S", "144.43E", "21", "AU"],
  ["MELBOURNE/MOORAB", "YMMB", "None", "94870", "37.58S", "145.05E", "16", "AU"],
  ["MOUNT GAMBIER AR", "YMMG", "None", "94821", "37.43S", "140.46E", "69", "AU"],
  ["MILDURA AIRPORT", "YMMI", "None", "94693", "34.13S", "142.04E", "52", "AU"],
  ["MELBOURNE INTL A", "YMML", "None", "94866", "37.40S", "144.49E", "141", "AU"],
  ["MACQUARIE ISLAND", "YMMQ", "None", "94998", "54.28S", "158.55E", "6", "AU"],
  ["WYNYARD WEST", "YMWY", "None", "94957", "40.58S", "145.43E", "11", "AU"],
  ["ADELAIDE INTL AR", "YPAD", "None", "94672", "34.57S", "138.31E", "4", "AU"],
  ["ALBANY AIRPORT", "YPAL", "None", "None", "34.56S", "117.48E", "69", "AU"],
  ["BROKEN HILL", "YPBH", "None", "94689", "31.58S", "141.28E", "315", "AU"],
  ["PARABURDOO", "YPBO", "None", "94316", "23.12S", "117.45E", "1292", "AU"],
  ["COCOS ISL INTL A", "YPCC", "None", "96996", "12.10S", "096.49E", "3", "AU"],
  ["CEDUNA AIRPORT", "YPCD", "None", "None", "32.07S", "133.41E", "17", "AU"],
  ["DARWIN (CIV/MIL)", "YPDN", "None", "94120", "12.25S", "130.54E", "30", "AU"],
  ["PEARCE (AUS-AFB)", "YPEA", "None", "94612", "31.40S", "116.01E", "49", "AU"],
  ["EDINBURGH (AUS-A", "YPED", "None", "95676", "34.42S", "138.37E", "20", "AU"],
  ["FORREST AIRPORT", "YPFT", "None", "94646", "30.49S", "128.05E", "160", "AU"],
  ["GERALDTON AIRPOR", "YPGN", "None", "94403", "28.46S", "114.42E", "34", "AU"],
  ["KALGOORLIE/BOULD", "YPKG", "None", "94637", "30.46S", "121.27E", "360", "AU"],
  ["KUNUNURRA AIRPOR", "YPKU", "None", "94216", "15.46S", "128.41E", "45", "AU"],
  ["LEIGH CREEK S. A", "YPLC", "None", "94674", "30.36S", "138.25E", "262", "AU"],
  ["LEARMOUTH", "YPLM", "None", "94302", "22.13S", "114.04E", "6", "AU"],
  ["MEEKATHARRA AIRP", "YPMR", "None", "94430", "26.36S", "118.31E", "518", "AU"],
  ["PORT HEDLAND ARR", "YPPD", "None", "94312", "20.22S", "118.37E", "6", "AU"],
  ["ADELAIDE/PARAFIE", "YPPF", "None", "95677", "34.46S", "138.37E", "16", "AU"],
  ["PERTH INTL/BELMO", "YPPH", "None", "94610", "31.56S", "115.59E", "13", "AU"],
  ["KATHERINE/TINDAL", "YPTN", "None", "94132", "14.31S", "132.23E", "109", "AU"],
  ["WOOMERA (AUS-AFB", "YPWR", "None", "94659", "31.07S", "136.49E", "167", "AU"],
  ["CHRISTMAS ISL (P", "YPXM", "None", "96995", "10.27S", "105.40E", "259", "AU"],
  ["RICHMOND", "YRMD", "None", "None", "20.42S", "143.07E", "207", "AU"],
  ["BANKSTOWN AIRPOR", "YSBK", "None", "94765", "33.56S", "150.59E", "14", "AU"],
  ["CANBERRA (CIV/MI", "YSCB", "None", "94926", "35.17S", "149.10E", "577", "AU"],
  ["COOMA", "YSCM", "None", "94923", "36.13S", "149.04E", "778", "AU"],
  ["CAMDEN AIRPORT", "YSCN", "None", "94755", "34.01S", "150.40E", "70", "AU"],
  ["DUBBO", "YSDU", "None", "94719", "32.13S", "148.34E", "275", "AU"],
  ["NORFOLK ISLAND A", "YSNF", "None", "94996", "29.01S", "167.55E", "109", "AU"],
  ["NOWRA (AUS-NAVY)", "YSNW", "None", "94750", "34.57S", "150.31E", "110", "AU"],
  ["RICHMOND (AUS-AF", "YSRI", "None", "94753", "33.36S", "150.46E", "21", "AU"],
  ["SYDNEY INTL AIRP", "YSSY", "SYD", "94767", "33.57S", "151.10E", "3", "AU"],
  ["TAMWORTH AIRPORT", "YSTW", "None", "94762", "31.04S", "150.51E", "410", "AU"],
  ["WAGGA WAGGA(CV/M", "YSWG", "None", "94910", "35.08S", "147.28E", "213", "AU"],
  ["WILLIAMTOWN(AUS-", "YSWM", "None", "94776", "32.46S", "151.49E", "8", "AU"],
  ["TELFER AIRPORT", "YTEF", "None", "None", "21.43S", "122.14E", "296", "AU"],
  ["TENNANT CREEK", "YTNK", "TCA", "None", "19.38S", "134.11E", "377", "AU"],
  ["TAREE AIRPORT", "YTRE", "TRO", "None", "31.53S", "152.31E", "12", "AU"],
  ["WANGARATTA ARP", "YWGT", "None", "None", "36.25S", "146.18E", "153", "AU"],
  ["WHYALLA AIRPORT", "YWHA", "WYA", "None", "33.04S", "137.31E", "13", "AU"],
  ["WILLIAMTOWN ARP", "YWLM", "None", "None", "32.48S", "151.50E", "9", "AU"],
  ["ADELAIDE AIRPOR", "AAAD", "None", "None", "34.55S", "138.31E", "4", "AU"],
  ["WOOMERA AERODRO", "AAWR", "None", "None", "31.08S", "136.48E", "167", "AU"],
  ["BRISBANE AIRPOR", "ABBN", "None", "None", "27.25S", "153.04E", "6", "AU"],
  ["CHARLEVILLE ARP", "ABCV", "None", "None", "26.25S", "146.16E", "304", "AU"],
  ["GLADSTONE", "ABGL", "None", "None", "23.51S", "151.16E", "76", "AU"],
  ["MOUNT ISA AIRPO", "ABMA", "None", "None", "20.38S", "139.28E", "342", "AU"],
  ["TOWNSVILLE(AUS-", "ABTL", "None", "None", "19.15S", "146.45E", "6", "AU"],
  ["DARWIN (AUS-AFB", "ADDN", "None", "None", "12.24S", "130.52E", "30", "AU"],
  ["GOVE AIRPORT", "ADGV", "None", "None", "12.16S", "136.49E", "54", "AU"],
  ["BROOME AIRPORT", "AHBR", "None", "None", "17.56S", "122.13E", "9", "AU"],
  ["PORT HEDLAND AR", "AHPD", "None", "None", "20.22S", "118.37E", "11", "AU"],
  ["LAVERTON (AUS-A", "AMLV", "None", "None", "37.51S", "144.43E", "14", "AU"],
  ["MOUNT GAMBIER A", "AMMG", "None", "None", "37.43S", "140.46E", "69", "AU"],
  ["NAURU ISLAND", "ANAU", "INU", "91530", "00.33S", "166.55E", "7", "AU"],
  ["NAURU ISLAND", "ANYN", "None", "None", "00.33S", "166.55E", "7", "AU"],
  ["ALBANY AIRPORT", "APAL", "None", "None", "34.57S", "117.47E", "69", "AU"],
  ["CARNARVON AIRPOR", "APCR", "None", "None", "24.53S", "113.40E", "7", "AU"],
  ["COFFS HARBOUR AR", "YSCH", "None", "None", "30.19S", "153.07E", "5", "AU"],
  ["DARWIN (CIV/MIL", "APDN", "None", "None", "12.24S", "130.52E", "30", "AU"],
  ["FORREST AIRPORT", "APFT", "None", "None", "30.49S", "128.05E", "160", "AU"],
  ["KALGOORLIE ARPT", "APKG", "None", "None", "30.46S", "121.27E", "360", "AU"],
  ["PERTH INTL ARPT", "APPH", "None", "None", "31.55S", "115.57E", "12", "AU"],
  ["ALICE SPRINGS A", "ASAS", "None", "None", "23.48S", "133.54E", "544", "AU"],
  ["LORD HOWE ISLAND", "ASLH", "None", "None", "31.31S", "159.04E", "6", "AU"],
  ["NORFOLK ISLAND", "ASNF", "None", "None", "29.01S", "167.55E", "109", "AU"],
  ["NOWRA (AUS-NAVY", "ASNW", "None", "None", "34.57S", "150.31E", "110", "AU"],
  ["SYDNEY INTL AIR", "ASSY", "None", "None", "33.57S", "151.10E", "3", "AU"]]

/-- `STATIONS` (database/stations.py 9317-9406). -/
noncomputable def stations93 : List StationRow := rows! [
  ["WAGGA ARPT", "ASWG", "None", "None", "35.08S", "147.26E", "213", "AU"],
  ["WILLIAMTOWN AER", "ASWM", "None", "None", "32.46S", "151.49E", "11", "AU"],
  ["HOBART/TASMANIA", "AMHB", "None", "None", "42.49S", "147.30E", "3", "AU"],
  ["MACQUARIE ISLAND", "AMMQ", "None", "None", "54.28S", "158.55E", "6", "AU"],
  ["COCOS ISLAND AR", "ACCC", "None", "None", "12.10S", "096.49E", "3", "CC"],
  ["DERBY", "YPDB", "None", "None", "17.22S", "123.40E", "7", "AU"],
  ["AUCKLAND INTL AR", "NZAA", "AKL", "93119", "37.01S", "174.48E", "6", "NZ"],
  ["CAMPBELL ISLAND", "NZCA", "None", "93944", "52.32S", "169.09E", "19", "NZ"],
  ["CHRISTCHURCH INT", "NZCH", "CHC", "93780", "43.28S", "172.33E", "34", "NZ"],
  ["CHATHAM ISL/TUUT", "NZCI", "None", "93986", "43.57S", "176.34E", "48", "NZ"],
  ["DUNEDIN AIRPORT", "NZDN", "None", "93890", "45.55S", "170.11E", "2", "NZ"],
  ["GISBORNE AERODRO", "NZGS", "None", "93291", "38.40S", "177.58E", "8", "NZ"],
  ["HOKITIKA AERODRO", "NZHK", "None", "93614", "42.43S", "170.58E", "40", "NZ"],
  ["KAIKOURA", "NZKI", "None", "93677", "42.25S", "173.41E", "101", "NZ"],
  ["KAITAIA", "NZKT", "None", "93012", "35.07S", "173.16E", "87", "NZ"],
  ["MILFORD SOUND", "NZMF", "None", "93720", "44.40S", "167.55E", "6", "NZ"],
  ["NEW PLYMOUTH AER", "NZNP", "None", "93308", "39.01S", "174.10E", "36", "NZ"],
  ["INVERCARGILL AER", "NZNV", "None", "93844", "46.25S", "168.19E", "1", "NZ"],
  ["OHAKEA (NZ-AFB)", "NZOH", "None", "93401", "40.12S", "175.23E", "52", "NZ"],
  ["OAMARU ARPT (AUT", "NZOU", "None", "93796", "44.58S", "171.04E", "30", "NZ"],
  ["PARAPARAUMU AERO", "NZPP", "None", "93417", "40.53S", "174.58E", "12", "NZ"],
  ["RAOUL ISL/KERMAD", "NZRN", "None", "93997", "29.15S", "177.55E", "49", "NZ"],
  ["ROTORUA AERODROM", "NZRO", "None", "93246", "38.07S", "176.19E", "294", "NZ"],
  ["TAURANGA AERO AW", "NZTG", "None", "93186", "37.40S", "176.11E", "5", "NZ"],
  ["BLEHEIM/WOODBOUR", "NZWB", "None", "93577", "41.31S", "173.52E", "32", "NZ"],
  ["WELLINGTON INTL", "NZWN", "None", "93436", "41.19S", "174.48E", "7", "NZ"],
  ["WHENUAPAI (NZ-AF", "NZWP", "None", "93112", "36.46S", "174.37E", "27", "NZ"],
  ["WESTPORT HARBOUR", "NZWS", "None", "93516", "41.45S", "171.35E", "4", "NZ"],
  ["WILLIAMS FIELD", "NZCM", "None", "89674", "77.52S", "166.58E", "8", "AQ"],
  ["AMUNDSEN-SCOTT", "NZSP", "None", "89009", "89.59S", "179.59E", "2830", "AQ"],
  ["PEGASUS FIELD", "NZPG", "None", "None", "77.57S", "166.31E", "5", "AQ"],
  ["MCMURDO WILLIAMS", "NZWD", "None", "None", "77.52S", "167.04E", "22", "AQ"],
  ["MCMURDO ICE RNWY", "NZIR", "None", "None", "77.51S", "166.35E", "2", "AQ"],
  ["SOLA/VANUA LAVA", "NVSC", "None", "91551", "13.50S", "167.33E", "18", "VU"],
  ["LONGANA AIRPORT", "NVSG", "None", "None", "15.18S", "167.58E", "51", "VU"],
  ["LAMAP/MALEKOULA", "NVSL", "None", "91555", "16.25S", "167.48E", "26", "VU"],
  ["PEKOA ARPT/SANTO", "NVSS", "None", "91554", "15.31S", "167.13E", "44", "VU"],
  ["ANELGHOWHAT ARPT", "NVVA", "None", "None", "20.15S", "169.46E", "3", "VU"],
  ["BAUERFIELD/EFATE", "NVVV", "None", "91557", "17.41S", "168.18E", "21", "VU"],
  ["TANNA", "NVVW", "None", "None", "19.27S", "169.13E", "6", "VU"],
  ["KONE AIRPORT", "NWWD", "None", "None", "21.03S", "164.50E", "7", "NC"],
  ["ILS DES PINS/MOU", "NWWE", "None", "91596", "22.36S", "167.26E", "97", "NC"],
  ["KOUMAC", "NWWK", "None", "91577", "20.34S", "164.16E", "18", "NC"],
  ["OUANAHAM/WANAHAM", "NWWL", "None", "91582", "20.46S", "167.13E", "29", "NC"],
  ["MAGENTA", "NWWM", "None", "None", "22.16S", "166.28E", "3", "NC"],
  ["NOUMEA/CALEDONI", "NWWN", "None", "91592", "22.16S", "166.26E", "72", "NC"],
  ["LA ROCHE/MARE IS", "NWWR", "None", "91587", "21.28S", "168.01E", "42", "NC"],
  ["TOUHO", "NWWU", "None", "None", "20.47S", "165.16E", "3", "NC"],
  ["OUVEA OULOUP/FAY", "NWWV", "None", "91579", "20.38S", "166.34E", "7", "NC"],
  ["NANDI FIJI", "NFFN", "None", "91680", "17.45S", "177.27E", "18", "FJ"],
  ["LAUTHALA BAY", "NFLB", "None", "91690", "18.09S", "178.27E", "6", "FJ"],
  ["NAUSORI FIJI", "NFNA", "None", "91683", "18.03S", "178.34E", "5", "FJ"],
  ["LAMBASA AIRPORT", "NFNL", "None", "91657", "16.28S", "179.20E", "17", "FJ"],
  ["FUA AMOTU TONGA", "NFTF", "None", "91792", "21.14S", "175.09W", "38", "FJ"],
  ["FUNAFUTI TUVALU", "NGFU", "None", "91643", "08.31S", "179.13E", "1", "FJ"],
  ["TARAWA KIRIBATI", "NGTA", "None", "91610", "01.21N", "172.55E", "2", "FJ"],
  ["TARAWA KIRIBATI", "NGTT", "None", "None", "01.21N", "172.55E", "2", "FJ"],
  ["LAKEMBA ISLAND", "NFNK", "None", "91691", "18.14S", "178.48W", "3", "FJ"],
  ["MATEI/TAVEUNI IS", "NFNM", "None", "91665", "16.40S", "179.52E", "21", "FJ"],
  ["ROTUMA ISLAND", "NFNR", "None", "91650", "12.30S", "177.03E", "26", "FJ"],
  ["SAVUSAVU AIRPORT", "NFNS", "None", "91663", "16.49S", "179.20E", "13", "FJ"],
  ["HA'APAI/LIFUKA I", "NFTL", "None", "91784", "19.47S", "174.20W", "3", "FJ"],
  ["VAVA'U ISLAND", "NFTV", "None", "91780", "18.35S", "173.58W", "71", "FJ"],
  ["BERU ISLAND", "NGBR", "None", "91623", "01.21S", "176.00E", "3", "FJ"],
  ["NANUMEA ISLAND", "NGFO", "None", "91631", "05.40S", "176.07E", "3", "FJ"],
  ["ARORAE ISLAND", "NGTR", "None", "91629", "02.40S", "176.49E", "7", "FJ"],
  ["BUTARITARI ATOLL", "NGTU", "None", "91601", "03.01N", "172.46E", "1", "FJ"],
  ["FUTUNA ISL/MAOPO", "NLWF", "None", "91754", "14.19S", "178.07W", "36", "FJ"],
  ["PAGO PAGO", "NSTU", "None", "91765", "14.20S", "170.43W", "3", "WS"],
  ["FALEOLO INT/APIA", "NSFA", "None", "91759", "13.50S", "172.00W", "5", "WS"],
  ["RAROTONGA COOK I", "NCRG", "None", "91843", "21.12S", "159.49W", "7", "WS"],
  ["ALOFI COOK IS", "NIUE", "None", "91822", "19.04S", "169.55W", "20", "WS"],
  ["HIHIFO ILE WALLI", "NLWW", "None", "91753", "13.14S", "176.10W", "23", "WS"],
  ["TAHITI-FAAA POLY", "NTAA", "None", "91938", "17.33S", "149.37W", "2", "WS"],
  ["LA TONTOUTA NLLE", "NWWW", "None", "91590", "22.01S", "166.13E", "16", "WS"],
  ["APIA/UPOLU ISLAN", "NSAP", "None", "91762", "13.49S", "171.47W", "2", "WS"],
  ["ASAU/SAVAI'I ISL", "NSAU", "None", "91760", "13.30S", "172.37W", "4", "WS"],
  ["RURUTU ISLAND", "NTAR", "None", "91950", "22.25S", "151.22W", "3", "WS"],
  ["TUBUAI ISLAND", "NTAT", "None", "91954", "23.21S", "149.28W", "3", "WS"],
  ["REAO ISLAND", "NTGE", "None", "91949", "18.28S", "136.28W", "8", "WS"],
  ["BORA-BORA/MOTU-M", "NTTB", "None", "91930", "16.26S", "151.45W", "3", "WS"],
  ["RANGIROA/TUAMOTO", "NTTG", "None", "91941", "14.58S", "147.40W", "3", "WS"],
  ["HAO/TUAMOTO (MIL", "NTTO", "None", "91944", "18.04S", "140.56W", "3", "WS"],
  ["UTUROA/SOCIETY I", "NTTR", "None", "91934", "16.43S", "151.28W", "1", "WS"],
  ["MORUROA ATOLL (M", "NTTX", "None", "91952", "21.49S", "138.48W", "3", "WS"],
  ["AMURI/AITUTAKI I", "NCAI", "None", "91830", "18.49S", "159.46W", "6", "WS"],
  ["MANIHIKI ISLAND", "NCMH", "None", "None", "10.23S", "161.00W", "0", "WS"],
  ["MAUKE ISLAND", "NCMK", "None", "91840", "20.09S", "157.23W", "9", "WS"],
  ["PENRHYN ISLAND", "NCPY", "None", "91800", "09.01S", "158.04W", "2", "WS"],
  ["RAKAHANGA ATOLL", "NCRK", "None", "91804", "10.03S", "161.05W", "5", "WS"]]

end Verif
