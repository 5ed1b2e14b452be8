import Verif.Model.Stations.Rows

/-
Rows of `STATIONS` (database/stations.py). Generated by tools/stations2lean.py.
-/

namespace Verif

/-- `STATIONS` (database/stations.py 7017-7116). -/
noncomputable def stations70 : List StationRow := rows! [
  ["BISSAU (CIV/MIL)", "GGOV", "None", "61766", "11.52N", "015.39W", "36", "GW"],
  ["CONAKRY/GBESSIA", "GUCY", "None", "61832", "09.34N", "013.37W", "26", "GN"],
  ["FARANAH/BADALA", "GUFH", "None", "61833", "10.01N", "010.45W", "459", "GN"],
  ["KINDIA", "GUID", "None", "61818", "10.03N", "012.52W", "459", "GN"],
  ["KISSIDOUGOU", "GUKU", "None", "61834", "09.10N", "010.05W", "525", "GN"],
  ["LABE/TATA", "GULB", "None", "61809", "11.19N", "012.18W", "1026", "GN"],
  ["MACENTA", "GUMA", "None", "61847", "08.31N", "009.28W", "544", "GN"],
  ["N'ZEREKORE/KONIA", "GUNZ", "None", "61849", "07.43N", "008.49W", "470", "GN"],
  ["BOKE/BARALANDE", "GUOK", "None", "61816", "10.55N", "014.19W", "69", "GN"],
  ["SIGUIRI", "GUSI", "None", "61811", "11.25N", "009.10W", "366", "GN"],
  ["KANKAN/DIANKANA", "GUXD", "None", "61829", "10.22N", "009.18W", "384", "GN"],
  ["SPRIGGS PAYNE/MO", "GLMR", "None", "65602", "06.19N", "010.45W", "12", "LR"],
  ["ROBERTS INTL/MON", "GLRB", "None", "65660", "06.15N", "010.20W", "18", "LR"],
  ["AGADIR/INEZGANE", "GMAA", "None", "60250", "30.22N", "009.34W", "23", "MA"],
  ["AL MASSIRA MC", "GMAD", "None", "60252", "30.19N", "009.25W", "74", "MA"],
  ["GUELMIM", "GMAG", "None", "None", "29.02N", "010.03W", "333", "MA"],
  ["TAN-TAN (CIV/MIL", "GMAT", "None", "60285", "28.26N", "011.09W", "200", "MA"],
  ["ZAGORA", "GMAZ", "None", "60275", "30.19N", "005.52W", "729", "MA"],
  ["FES-SAIS", "GMFF", "None", "60141", "33.55N", "004.58W", "579", "MA"],
  ["IFRANE AIRPORT", "GMFI", "None", "60160", "33.30N", "005.10W", "1665", "MA"],
  ["ER-RACHIDIA (RMA", "GMFK", "None", "60210", "31.57N", "004.24W", "1045", "MA"],
  ["MEKNES/BASSATINE", "GMFM", "None", "60150", "33.52N", "005.31W", "549", "MA"],
  ["TAOUIMA/NADOR", "GMFN", "None", "60340", "35.08N", "002.55W", "16", "MA"],
  ["OUJDA/ANGADS", "GMFO", "None", "60115", "34.46N", "001.55W", "470", "MA"],
  ["TAZA", "GMFZ", "None", "60127", "34.13N", "004.00W", "510", "MA"],
  ["CASABLANCA/ANFA", "GMMC", "None", "60155", "33.34N", "007.40W", "62", "MA"],
  ["RABAT/SALE (RMAF", "GMME", "None", "60135", "34.02N", "006.46W", "75", "MA"],
  ["SIDI IFNI", "GMMF", "None", "60060", "29.22N", "010.10W", "66", "MA"],
  ["ESSAOUIRA", "GMMI", "None", "60220", "31.31N", "009.46W", "8", "MA"],
  ["LAAYOUNE/HASSAN", "GMML", "None", "None", "27.08N", "013.14W", "6", "MA"],
  ["NOUASSEUR/CASABL", "GMMN", "None", "60156", "33.22N", "007.34W", "206", "MA"],
  ["SAFI", "GMMS", "None", "60185", "32.16N", "009.13W", "45", "MA"],
  ["CASABLANCA T-M", "GMMT", "None", "None", "33.36N", "007.28W", "96", "MA"],
  ["ARWI", "GMMW", "None", "None", "34.59N", "003.01W", "175", "MA"],
  ["MARRAKECH/MENARA", "GMMX", "None", "60230", "31.37N", "008.01W", "466", "MA"],
  ["KENITRA/TOURISME", "GMMY", "None", "60120", "34.17N", "006.35W", "14", "MA"],
  ["OUARZAZATE", "GMMZ", "None", "60265", "30.55N", "006.54W", "1140", "MA"],
  ["SIDI SLIMANE", "GMSL", "None", "60136", "34.13N", "006.02W", "52", "MA"],
  ["AL HOCEIMA/COTE", "GMTA", "None", "60107", "35.10N", "003.51W", "14", "MA"],
  ["SANIA RAMEL/TETO", "GMTN", "None", "60318", "35.34N", "005.19W", "10", "MA"],
  ["TANGIER/BOUKHALF", "GMTT", "None", "60101", "35.43N", "005.54W", "21", "MA"],
  ["DAKHLA AIRPORT", "GMMH", "None", "None", "23.43N", "015.56W", "11", "MA"],
  ["ZIGUINCHOR", "GOGG", "None", "61695", "12.33N", "016.16W", "23", "SN"],
  ["KOLDA", "GOGK", "None", "61698", "12.54N", "014.58W", "10", "SN"],
  ["CAPE SKIRING", "GOGS", "None", "61697", "12.24N", "016.45W", "13", "SN"],
  ["DIOURBEL", "GOOD", "None", "61666", "14.39N", "016.13W", "9", "SN"],
  ["LINGUERE", "GOOG", "None", "61627", "15.24N", "015.05W", "21", "SN"],
  ["KAOLACK", "GOOK", "None", "61679", "14.09N", "016.04W", "7", "SN"],
  ["DAKAR/YOFF", "GOOY", "None", "61641", "14.43N", "017.30W", "24", "SN"],
  ["MATAM/OURO SOGUI", "GOSM", "None", "61630", "15.36N", "013.20W", "17", "SN"],
  ["PODOR", "GOSP", "None", "61612", "16.41N", "014.58W", "7", "SN"],
  ["SAINT LOUIS", "GOSS", "None", "61600", "16.03N", "016.26W", "4", "SN"],
  ["KEDOUGOU", "GOTK", "None", "61699", "12.34N", "012.13W", "167", "SN"],
  ["SIMENTI", "GOTS", "None", "None", "13.03N", "013.18W", "52", "SN"],
  ["TAMBACOUNDA", "GOTT", "None", "61687", "13.44N", "013.39W", "50", "SN"],
  ["AIOUN EL ATROUSS", "GQNA", "None", "61499", "16.41N", "009.35W", "223", "MR"],
  ["BOUTILIMIT", "GQNB", "None", "61461", "17.31N", "014.40W", "75", "MR"],
  ["TIDJIKJA", "GQND", "None", "61450", "18.34N", "011.25W", "402", "MR"],
  ["KIFFA", "GQNF", "None", "61498", "16.37N", "011.24W", "115", "MR"],
  ["NEMA", "GQNI", "None", "61497", "16.36N", "007.16W", "269", "MR"],
  ["AKJOUJT", "GQNJ", "None", "61437", "19.45N", "014.22W", "120", "MR"],
  ["KAEDI", "GQNK", "None", "61492", "16.08N", "013.31W", "18", "MR"],
  ["NOUAKCHOTT", "GQNN", "None", "61442", "18.06N", "015.56W", "3", "MR"],
  ["NOUAKCHOTT/OUMTO", "GQNO", "None", "None", "18.18N", "015.58W", "4", "MR"],
  ["ROSSO", "GQNR", "None", "61489", "16.30N", "015.49W", "6", "MR"],
  ["ATAR", "GQPA", "None", "61421", "20.31N", "013.04W", "224", "MR"],
  ["NOUADHIBOU", "GQPP", "None", "61415", "20.55N", "017.01W", "3", "MR"],
  ["BIR MOGHREIN (MI", "GQPT", "None", "61401", "25.13N", "011.37W", "360", "MR"],
  ["EL AAIUN", "GSAI", "None", "60033", "27.08N", "013.11W", "63", "EH"],
  ["VILLA CISNEROS(M", "GSVO", "None", "60096", "23.41N", "015.52W", "10", "EH"],
  ["SAL ISL/AMILCAR", "GVAC", "None", "08594", "16.43N", "022.56W", "55", "CV"],
  ["RABIL AIRPORT", "GVBA", "None", "None", "16.08N", "022.53W", "22", "CV"],
  ["PRAIA INTL", "GVNP", "None", "None", "14.57N", "023.29W", "70", "CV"],
  ["FRANCISCO MENDES", "GVFM", "RAI", "None", "14.55N", "023.30W", "70", "CV"],
  ["S. PEDRO", "GVSV", "VXE", "None", "16.50N", "025.40W", "20", "CV"],
  ["BOU-SAADA", "DAAD", "None", "60515", "35.19N", "004.12E", "461", "DZ"],
  ["BEJAIA/SOUMMAM", "DAAE", "None", "60402", "36.43N", "005.04E", "2", "DZ"],
  ["AOULEF", "DAAF", "None", "None", "26.58N", "001.04E", "309", "DZ"],
  ["DAR-EL-BEIDA/HOU", "DAAG", "None", "60390", "36.43N", "003.13E", "25", "DZ"],
  ["DJANET/TISKA", "DAAJ", "None", "60670", "24.17N", "009.28E", "968", "DZ"],
  ["ILLIZI/ILLIRANE", "DAAP", "None", "60640", "26.43N", "008.37E", "558", "DZ"],
  ["SETIF/AIN-ARNAT", "DAAS", "None", "60445", "36.11N", "005.20E", "1038", "DZ"],
  ["TAMANRASSET/AGUE", "DAAT", "None", "None", "22.49N", "005.28E", "1377", "DZ"],
  ["JIJEL/TAHER", "DAAV", "None", "60351", "36.48N", "005.53E", "11", "DZ"],
  ["BORDJ OMAR DRISS", "DAAW", "None", "None", "28.07N", "006.49E", "387", "DZ"],
  ["MECHERIA", "DAAY", "None", "60549", "33.32N", "000.15W", "1149", "DZ"],
  ["ANNABA/EL MELLAH", "DABB", "None", "60360", "36.49N", "007.49E", "4", "DZ"],
  ["CONSTANTINE/EL B", "DABC", "None", "60419", "36.16N", "006.37E", "694", "DZ"],
  ["SKIKDA", "DABP", "None", "60355", "36.55N", "006.57E", "7", "DZ"],
  ["TEBESSA", "DABS", "None", "60475", "35.26N", "008.07E", "813", "DZ"],
  ["BATNA", "DABT", "None", "60468", "35.45N", "006.19E", "1052", "DZ"],
  ["TINFOUYE", "DAEF", "None", "None", "28.26N", "007.33E", "472", "DZ"],
  ["RHOURD NOUSS", "DAEN", "None", "None", "29.44N", "006.43E", "252", "DZ"],
  ["TILREMPT/HASSI", "DAFH", "None", "None", "32.56N", "003.19E", "774", "DZ"],
  ["DJELFA/TLETSI", "DAFI", "None", "60535", "34.40N", "003.15E", "1144", "DZ"],
  ["TIARET", "DAOB", "None", "60511", "35.20N", "001.28E", "989", "DZ"],
  ["TINDOUF", "DAOF", "None", "60656", "27.42N", "008.10W", "431", "DZ"],
  ["CHLEF", "DAOI", "None", "60425", "36.13N", "001.19E", "143", "DZ"],
  ["ORAN/TAFAROUI", "DAOL", "None", "None", "35.32N", "000.31W", "112", "DZ"],
  ["MASCARA", "DAOM", "None", "None", "35.23N", "000.08W", "492", "DZ"]]

/-- `STATIONS` (database/stations.py 7117-7216). -/
noncomputable def stations71 : List StationRow := rows! [
  ["TLEMCEN/ZENATA", "DAON", "None", "60531", "35.01N", "001.28W", "247", "DZ"],
  ["ORAN/ES SENIA", "DAOO", "None", "60490", "35.37N", "000.36W", "90", "DZ"],
  ["BECHAR/OUAKDA", "DAOR", "None", "60571", "31.39N", "002.16W", "773", "DZ"],
  ["MASCARA/GHRISS", "DAOV", "None", "60507", "35.12N", "000.09E", "514", "DZ"],
  ["IN GUEZZAM", "DATG", "None", "None", "19.34N", "005.45E", "399", "DZ"],
  ["BORDJ MOKHTAR", "DATM", "None", "None", "21.23N", "000.55E", "396", "DZ"],
  ["ADRAR/TOUAT", "DAUA", "None", "60620", "27.50N", "000.11W", "263", "DZ"],
  ["BISKRA", "DAUB", "None", "60525", "34.47N", "005.43E", "87", "DZ"],
  ["EL GOLEA", "DAUE", "None", "60590", "30.34N", "002.52E", "397", "DZ"],
  ["GHARDAIA/NOUMERA", "DAUG", "None", "60566", "32.22N", "003.49E", "450", "DZ"],
  ["HASSI-MESSAOUD/I", "DAUH", "None", "60581", "31.40N", "006.09E", "142", "DZ"],
  ["IN SALAH NORTH", "DAUI", "None", "None", "27.15N", "002.31E", "269", "DZ"],
  ["TOUGGOURT/SIDI M", "DAUK", "None", "60555", "33.05N", "006.07E", "85", "DZ"],
  ["LAGHOUAT", "DAUL", "None", "60545", "33.46N", "002.55E", "765", "DZ"],
  ["EL OUED/GUEMER", "DAUO", "None", "60559", "33.30N", "006.47E", "63", "DZ"],
  ["TIMIMOUN", "DAUT", "None", "60607", "29.15N", "000.16E", "312", "DZ"],
  ["OUARGLA", "DAUU", "None", "60580", "31.55N", "005.24E", "141", "DZ"],
  ["IN AMENAS/ZARZAI", "DAUZ", "None", "60611", "28.03N", "009.37E", "562", "DZ"],
  ["COTONOU/CADJEHOU", "DBBB", "None", "65344", "06.20N", "002.22E", "9", "BJ"],
  ["BOHICON/CANA", "DBBC", "None", "65338", "07.10N", "002.04E", "167", "BJ"],
  ["KANDI", "DBBK", "None", "65306", "11.07N", "002.55E", "292", "BJ"],
  ["NATITINGOU", "DBBN", "None", "65319", "10.19N", "001.22E", "461", "BJ"],
  ["PARAKOU", "DBBP", "None", "65330", "09.20N", "002.37E", "393", "BJ"],
  ["SAVE", "DBBS", "None", "65335", "08.01N", "002.28E", "200", "BJ"],
  ["OUAHIGOUYA", "DFCC", "None", "65502", "13.34N", "002.25W", "336", "BF"],
  ["BOROMO", "DFCO", "None", "65516", "11.45N", "002.55W", "271", "BF"],
  ["PO", "DFCP", "None", "65518", "11.09N", "001.08W", "322", "BF"],
  ["DORI", "DFEE", "None", "65501", "14.01N", "000.01W", "277", "BF"],
  ["FADA N'GOURMA", "DFEF", "None", "65507", "12.01N", "000.22E", "309", "BF"],
  ["OUAGADOUGOU (MIL", "DFFD", "None", "65503", "12.20N", "001.31W", "306", "BF"],
  ["DEDOUGOU", "DFOD", "None", "65505", "12.28N", "003.28W", "300", "BF"],
  ["GAOUA", "DFOG", "None", "65522", "10.19N", "003.10W", "335", "BF"],
  ["BOBO-DIOULASSO", "DFOO", "None", "65510", "11.10N", "004.19W", "460", "BF"],
  ["ACCRA/KOTOKA INT", "DGAA", "None", "65472", "05.35N", "000.10W", "69", "GH"],
  ["ADA", "DGAD", "None", "65475", "05.46N", "000.37E", "7", "GH"],
  ["HO", "DGAH", "None", "65453", "06.35N", "000.28E", "158", "GH"],
  ["AKUSE", "DGAK", "None", "65460", "06.05N", "000.07E", "19", "GH"],
  ["SALTPOND", "DGAS", "None", "65469", "05.12N", "001.04W", "47", "GH"],
  ["TEMA", "DGAT", "None", "65473", "05.37N", "000.00E", "18", "GH"],
  ["AKIM ODA", "DGKA", "None", "65457", "05.55N", "000.58W", "140", "GH"],
  ["KOFORIDUA", "DGKK", "None", "65459", "06.04N", "000.15W", "167", "GH"],
  ["BOLE", "DGLB", "None", "65416", "09.01N", "002.28W", "301", "GH"],
  ["TAMALE (AFB/CIV)", "DGLE", "None", "65418", "09.30N", "000.51W", "173", "GH"],
  ["NAVRONGO", "DGLN", "None", "65401", "10.54N", "001.06W", "203", "GH"],
  ["WA", "DGLW", "None", "65404", "10.03N", "002.30W", "323", "GH"],
  ["YENDI", "DGLY", "None", "65420", "09.26N", "000.01W", "197", "GH"],
  ["SEFWI BEKWAI", "DGSB", "None", "65445", "06.12N", "002.19W", "172", "GH"],
  ["KUMASI", "DGSI", "None", "65442", "06.43N", "001.36W", "293", "GH"],
  ["SUNYANI", "DGSN", "None", "65439", "07.19N", "002.19W", "312", "GH"],
  ["WENCHI", "DGSW", "None", "65432", "07.45N", "002.06W", "340", "GH"],
  ["TAKORADI (AFB)", "DGTK", "None", "65467", "04.52N", "001.46W", "9", "GH"],
  ["AXIM", "DGTX", "None", "65465", "04.52N", "002.13W", "40", "GH"],
  ["ADIAKE", "DIAD", "None", "65585", "05.17N", "003.17W", "39", "CI"],
  ["ABIDJAN/PORT BOU", "DIAP", "None", "65578", "05.15N", "003.55W", "8", "CI"],
  ["BOUAKE (CIV/MIL)", "DIBK", "None", "65555", "07.43N", "005.04W", "376", "CI"],
  ["BONDOUKOU/SOKO", "DIBU", "None", "65545", "08.03N", "002.46W", "370", "CI"],
  ["DIMBOKRO CITY", "DIDK", "None", "65562", "06.39N", "004.42W", "92", "CI"],
  ["DALOA", "DIDL", "None", "65560", "06.52N", "006.28W", "277", "CI"],
  ["FERKESSEDOUGOU", "DIFK", "None", "None", "09.35N", "005.12W", "323", "CI"],
  ["GAGNOA CITY", "DIGA", "None", "65557", "06.07N", "005.57W", "210", "CI"],
  ["KORHOGO", "DIKO", "None", "65536", "09.25N", "005.37W", "381", "CI"],
  ["MAN", "DIMN", "None", "65548", "07.22N", "007.31W", "340", "CI"],
  ["ODIENNE", "DIOD", "None", "65528", "09.30N", "007.34W", "421", "CI"],
  ["SAN PEDRO", "DISP", "None", "65594", "04.45N", "006.39W", "30", "CI"],
  ["SASSANDRA/DREWIN", "DISS", "None", "65599", "04.57N", "006.04W", "66", "CI"],
  ["TABOU", "DITB", "None", "65592", "04.25N", "007.22W", "21", "CI"],
  ["YAMOUSSOUKRO", "DIYO", "None", "65563", "06.54N", "005.20W", "213", "CI"],
  ["SAM MBAKWE", "DNIM", "None", "None", "05.26N", "007.12E", "114", "NG"],
  ["ABUJA", "DNAA", "None", "65125", "09.00N", "007.16E", "344", "NG"],
  ["AKURE AIRPORT", "DNAK", "None", "None", "07.15N", "005.18E", "336", "NG"],
  ["BENIN CITY(CIV/M", "DNBE", "None", "65229", "06.19N", "005.35E", "79", "NG"],
  ["BIDA", "DNBI", "None", "65112", "09.05N", "006.01E", "143", "NG"],
  ["CALABAR", "DNCA", "None", "65264", "04.58N", "008.20E", "63", "NG"],
  ["ENUGU", "DNEN", "None", "65257", "06.28N", "007.32E", "137", "NG"],
  ["GUSAU", "DNGU", "None", "65015", "12.10N", "006.42E", "469", "NG"],
  ["IBADAN", "DNIB", "None", "65208", "07.22N", "003.59E", "228", "NG"],
  ["ILORIN", "DNIL", "None", "65101", "08.28N", "004.29E", "305", "NG"],
  ["JOS", "DNJO", "None", "65134", "09.52N", "008.54E", "1285", "NG"],
  ["KADUNA (CIV/MIL)", "DNKA", "None", "65019", "10.35N", "007.27E", "642", "NG"],
  ["KANO/MALLAM AMIN", "DNKN", "None", "65046", "12.03N", "008.31E", "481", "NG"],
  ["MAIDUGURI", "DNMA", "None", "65082", "11.50N", "013.04E", "354", "NG"],
  ["MAKURDI (MIL)", "DNMK", "None", "65271", "07.40N", "008.37E", "97", "NG"],
  ["LAGOS/IKEJA", "DNMM", "None", "65201", "06.34N", "003.19E", "38", "NG"],
  ["MINNA AIRPORT", "DNMN", "None", "None", "09.39N", "006.28E", "254", "NG"],
  ["OSHOGBO", "DNOS", "None", "65215", "07.46N", "004.28E", "304", "NG"],
  ["PORT HARCOURT", "DNPO", "None", "65250", "04.50N", "007.01E", "18", "NG"],
  ["SOKOTO", "DNSO", "None", "65010", "12.55N", "005.12E", "302", "NG"],
  ["YOLA", "DNYO", "None", "65167", "09.13N", "012.28E", "174", "NG"],
  ["ZARIA", "DNZA", "None", "65030", "11.07N", "007.40E", "664", "NG"],
  ["BIRNI-N'KONNI", "DRRB", "None", "61075", "13.48N", "005.15E", "273", "NE"],
  ["GAYA", "DRRG", "None", "61099", "11.52N", "003.27E", "203", "NE"],
  ["BILMA", "DRRI", "None", "61017", "18.40N", "012.55E", "357", "NE"],
  ["TILLABERY", "DRRL", "None", "61036", "14.11N", "001.26E", "210", "NE"],
  ["MARADI", "DRRM", "None", "61080", "13.28N", "007.04E", "373", "NE"],
  ["NIAMEY (CIV/MIL)", "DRRN", "None", "61052", "13.28N", "002.10E", "227", "NE"],
  ["TAHOUA", "DRRT", "None", "61043", "14.54N", "005.15E", "391", "NE"],
  ["AGADEZ SOUTH (MI", "DRZA", "None", "61024", "16.58N", "008.00E", "502", "NE"],
  ["DIFFA", "DRZF", "None", "61085", "13.25N", "012.46E", "305", "NE"],
  ["GOURE", "DRZG", "None", "61045", "13.58N", "010.18E", "460", "NE"],
  ["MAINE-SOROA", "DRZM", "None", "61096", "13.13N", "011.58E", "337", "NE"]]

/-- `STATIONS` (database/stations.py 7217-7316). -/
noncomputable def stations72 : List StationRow := rows! [
  ["ZINDER", "DRZR", "None", "61090", "13.46N", "008.58E", "453", "NE"],
  ["TABARKA", "DTKA", "None", "60710", "36.59N", "008.53E", "21", "TN"],
  ["HABIB BOURGUIBA", "DTMB", "None", "None", "35.46N", "010.45E", "2", "TN"],
  ["ENFIDHA", "DTNH", "None", "None", "36.04N", "010.26E", "2", "TN"],
  ["ZINE EL ABIDINE", "DTNZ", "None", "None", "36.05N", "010.26E", "21", "TN"],
  ["TUNIS/CARTHAGE", "DTTA", "None", "60715", "36.51N", "010.13E", "4", "TN"],
  ["BIZERTE/SIDI AHM", "DTTB", "None", "60714", "37.15N", "009.48E", "3", "TN"],
  ["REMADA", "DTTD", "None", "60775", "32.19N", "010.24E", "301", "TN"],
  ["GAFSA", "DTTF", "None", "60745", "34.25N", "008.49E", "314", "TN"],
  ["GABES", "DTTG", "None", "60765", "33.44N", "009.55E", "5", "TN"],
  ["DJERBA MELLITA", "DTTJ", "None", "60769", "33.52N", "010.46E", "4", "TN"],
  ["KAIROUAN", "DTTK", "None", "60735", "35.40N", "010.05E", "68", "TN"],
  ["KELIBIA", "DTTL", "None", "60720", "36.51N", "011.04E", "30", "TN"],
  ["MONASTIR-SKANES", "DTTM", "None", "60740", "35.40N", "010.45E", "3", "TN"],
  ["JENDOUBA", "DTTN", "None", "60725", "36.28N", "008.48E", "144", "TN"],
  ["EL BORMA", "DTTR", "None", "60780", "31.42N", "009.16E", "259", "TN"],
  ["SFAX/EL-MAOU", "DTTX", "None", "60750", "34.43N", "010.40E", "23", "TN"],
  ["TOZEUR/NEFTA", "DTTZ", "None", "60760", "33.55N", "008.05E", "93", "TN"],
  ["ATAKPAME/AKPAKA", "DXAK", "None", "65376", "07.32N", "001.07E", "402", "TG"],
  ["DJANGOU AIRPORT", "DXDP", "None", "None", "10.48N", "000.14E", "280", "TG"],
  ["MANGO/SANSANNE", "DXMG", "None", "65352", "10.22N", "000.28E", "146", "TG"],
  ["NAIMTOUGOU(CIV/M", "DXNG", "None", "65355", "09.46N", "001.06E", "343", "TG"],
  ["SOKODE", "DXSK", "None", "65361", "09.00N", "001.09E", "387", "TG"],
  ["TABLIGBO", "DXTA", "None", "65380", "06.34N", "001.30E", "44", "TG"],
  ["LOME/TOKOIN (MIL", "DXXX", "None", "65387", "06.10N", "001.15E", "25", "TG"],
  ["ADDIS ABABA/BOLE", "HAAB", "None", "63450", "08.58N", "038.47E", "2355", "ET"],
  ["AGORDAT", "HAAG", "None", "None", "15.33N", "037.52E", "626", "ET"],
  ["ARBA MINCH", "HAAM", "None", "63500", "06.04N", "037.40E", "1219", "ET"],
  ["AWASH", "HAAW", "None", "None", "08.58N", "040.10E", "1052", "ET"],
  ["AXUM", "HAAX", "None", "None", "14.07N", "038.43E", "2134", "ET"],
  ["ASMARA/YOHANNES", "HAAY", "None", "63021", "15.16N", "038.55E", "2325", "ET"],
  ["ASMARA/YOHANNES", "HHAS", "None", "None", "15.16N", "038.55E", "2356", "ET"],
  ["BACO/BAKO", "HABC", "None", "None", "05.49N", "036.37E", "1311", "ET"],
  ["BAHAR DAR", "HABD", "None", "63332", "11.36N", "037.19E", "1822", "ET"],
  ["COMBOLCHA/DESSIE", "HADC", "None", "63333", "11.04N", "039.43E", "1864", "ET"],
  ["DEBRE MARCOS", "HADM", "None", "63334", "10.20N", "037.43E", "2476", "ET"],
  ["DIRE DAWA (MIL/C", "HADR", "None", "63471", "09.35N", "041.52E", "1146", "ET"],
  ["GHINNIR/GINIR", "HAGH", "None", "None", "07.09N", "040.43E", "1844", "ET"],
  ["GONDAR", "HAGN", "None", "63331", "12.31N", "037.25E", "1985", "ET"],
  ["GODE (MIL)", "HAGO", "None", "63478", "05.56N", "043.34E", "320", "ET"],
  ["GORE", "HAGR", "None", "63403", "08.10N", "035.32E", "1974", "ET"],
  ["HARAR MEDA (MIL)", "HAHM", "None", "63451", "08.43N", "039.00E", "1876", "ET"],
  ["JIJIGA (MIL)", "HAJJ", "None", "63473", "09.19N", "042.43E", "1644", "ET"],
  ["JIMMA", "HAJM", "None", "63402", "07.40N", "036.49E", "1676", "ET"],
  ["KABRE DARE (MIL)", "HAKD", "None", "None", "06.45N", "044.16E", "550", "ET"],
  ["AWASSA (LAKE)", "HALA", "None", "63460", "07.04N", "038.30E", "1652", "ET"],
  ["MAKALE/MEQELE", "HAMK", "None", "63330", "13.28N", "039.32E", "2255", "ET"],
  ["MASSLO/MESLO", "HAML", "None", "None", "06.22N", "039.49E", "2274", "ET"],
  ["MASSAWA", "HAMS", "None", "63023", "15.37N", "039.27E", "10", "ET"],
  ["NEGHELLI (MIL)", "HANG", "None", "63533", "05.16N", "039.45E", "1455", "ET"],
  ["ASSAB", "HASB", "None", "63043", "13.04N", "042.43E", "14", "ET"],
  ["ASSOSA/ASOSA", "HASO", "None", "None", "10.01N", "034.31E", "1733", "ET"],
  ["TESSENEI/TESENEY", "HATS", "None", "None", "15.07N", "036.40E", "615", "ET"],
  ["BUJUMBURA", "HBBA", "None", "64390", "03.19S", "029.19E", "783", "BI"],
  ["ALULA", "HCMA", "None", "63200", "11.56N", "050.43E", "2", "SO"],
  ["BARDERA", "HCMD", "None", "63250", "02.21N", "042.17E", "116", "SO"],
  ["EIL", "HCME", "None", "63228", "07.57N", "049.46E", "36", "SO"],
  ["BOSASO", "HCMF", "None", "63210", "11.16N", "049.10E", "2", "SO"],
  ["GARDO", "HCMG", "None", "63225", "09.31N", "049.04E", "812", "SO"],
  ["HARGEISA", "HCMH", "None", "63170", "09.30N", "044.04E", "1326", "SO"],
  ["BERBERA (CIV/MIL", "HCMI", "None", "63160", "10.25N", "045.01E", "9", "SO"],
  ["LUG-GANANE", "HCMJ", "None", "63248", "03.34N", "042.27E", "150", "SO"],
  ["EL BUR", "HCML", "None", "63237", "04.42N", "046.37E", "175", "SO"],
  ["MOGADISHU", "HCMM", "None", "63260", "02.01N", "045.21E", "9", "SO"],
  ["BELET UEN", "HCMN", "None", "63240", "04.42N", "045.13E", "173", "SO"],
  ["OBBIA", "HCMO", "None", "63235", "05.19N", "048.34E", "10", "SO"],
  ["GALCAYO", "HCMR", "None", "63230", "06.50N", "047.16E", "302", "SO"],
  ["SCUSCIUBAN", "HCMS", "None", "63220", "10.18N", "050.13E", "344", "SO"],
  ["ERIGAVO", "HCMU", "None", "63180", "10.37N", "047.22E", "1743", "SO"],
  ["BURAO", "HCMV", "None", "63175", "09.31N", "045.34E", "1032", "SO"],
  ["AMBOULI DJIBOUTI", "HDAM", "None", "None", "11.33N", "043.10E", "49", "DJ"],
  ["DJIBOUTI/AMBOULI", "HFFF", "None", "63125", "11.33N", "043.08E", "19", "DJ"],
  ["MENIA", "HEAM", "None", "None", "28.00N", "030.45E", "1", "EG"],
  ["EL ARISH", "HEAR", "None", "62337", "31.04N", "033.49E", "32", "EG"],
  ["ASYUT", "HEAT", "None", "62393", "27.03N", "031.01E", "70", "EG"],
  ["ALEXANDRIA/NOUZH", "HEAX", "None", "62318", "31.11N", "029.56E", "7", "EG"],
  ["ALEXANDRIA BORG", "HEBA", "None", "None", "30.55N", "029.42E", "54", "EG"],
  ["BENI SUEF AFB", "HEBF", "None", "None", "29.13N", "031.01E", "33", "EG"],
  ["ABU SIMBEL (RUIN", "HEBL", "None", "62419", "22.23N", "031.37E", "188", "EG"],
  ["CAIRO INTL AIRPO", "HECA", "None", "62366", "30.07N", "031.23E", "74", "EG"],
  ["HURGUADA", "HEGN", "None", "62463", "27.11N", "033.48E", "14", "EG"],
  ["JIYANKLIS AFB", "HEGS", "None", "None", "30.49N", "030.11E", "15", "EG"],
  ["ISMAILIA", "HEIS", "None", "None", "30.35N", "032.15E", "3", "EG"],
  ["LUXOR (CIV/MIL)", "HELX", "None", "62405", "25.40N", "032.42E", "88", "EG"],
  ["MARSA ALAM INTL", "HEMA", "RMF", "None", "25.33N", "034.35E", "77", "EG"],
  ["MERSA MATRUH (MI", "HEMM", "None", "62306", "31.19N", "027.13E", "30", "EG"],
  ["PORT SAID", "HEPS", "None", "62333", "31.17N", "032.15E", "6", "EG"],
  ["ST CATHERINE", "HESC", "SKV", "None", "28.41N", "034.04E", "1332", "EG"],
  ["SHARM EL SHEIKHI", "HESH", "None", "None", "27.58N", "034.23E", "50", "EG"],
  ["ASWAN (CIV/MIL)", "HESN", "None", "62414", "23.58N", "032.49E", "194", "EG"],
  ["TABA INTL", "HETB", "TCP", "None", "29.35N", "034.47E", "750", "EG"],
  ["EL TOR", "HETR", "None", "62459", "28.13N", "033.39E", "35", "EG"],
  ["ELDORET", "HKEL", "None", "63686", "00.24N", "035.14E", "2133", "KE"],
  ["EMBU", "HKEM", "None", "63720", "00.34S", "037.29E", "1493", "KE"],
  ["GARISSA", "HKGA", "None", "63723", "00.28S", "039.39E", "147", "KE"],
  ["ISIOLO", "HKIS", "None", "None", "00.21N", "037.34E", "1067", "KE"],
  ["NAIROBI/JOMO KEN", "HKJK", "None", "None", "01.19S", "036.55E", "1624", "KE"],
  ["KAKAMEGA", "HKKG", "None", "63687", "00.16N", "034.46E", "1530", "KE"],
  ["KISUMU", "HKKI", "None", "63708", "00.06S", "034.45E", "1146", "KE"],
  ["KERICHO", "HKKR", "None", "63710", "00.22S", "035.21E", "2184", "KE"]]

/-- `STATIONS` (database/stations.py 7317-7416). -/
noncomputable def stations73 : List StationRow := rows! [
  ["KISII", "HKKS", "None", "63709", "00.40S", "034.46E", "1493", "KE"],
  ["KITALE", "HKKT", "None", "63661", "00.58N", "034.58E", "1850", "KE"],
  ["LODWAR", "HKLO", "None", "63612", "03.07N", "035.37E", "515", "KE"],
  ["LAMU/MANDA ISLAN", "HKLU", "None", "63772", "02.15S", "040.55E", "6", "KE"],
  ["MANDERA", "HKMA", "None", "63624", "03.55N", "041.52E", "231", "KE"],
  ["MARSABIT", "HKMB", "None", "63641", "02.17N", "037.53E", "1345", "KE"],
  ["MERU", "HKME", "None", "63695", "00.04N", "037.38E", "1554", "KE"],
  ["MERU", "HKMK", "None", "None", "00.14N", "038.10E", "680", "KE"],
  ["MALINDI", "HKML", "None", "63799", "03.13S", "040.06E", "23", "KE"],
  ["MOMBASA/MOI INTL", "HKMO", "None", "63820", "04.01S", "039.37E", "55", "KE"],
  ["MAKINDU", "HKMU", "None", "63766", "02.16S", "037.49E", "1000", "KE"],
  ["MARA SERENA", "HKMS", "None", "None", "01.24S", "035.00E", "1612", "KE"],
  ["MOYALE LOWER (OD", "HKMY", "None", "63619", "03.28N", "039.06E", "1097", "KE"],
  ["NAIROBI/JOMO KEN", "HKNA", "None", "63740", "01.19S", "036.55E", "1624", "KE"],
  ["NAIROBI/DAGORETT", "HKNC", "None", "63741", "01.18S", "036.45E", "1798", "KE"],
  ["NYERI", "HKNI", "None", "63717", "00.22S", "036.55E", "1759", "KE"],
  ["NAKURU", "HKNK", "None", "63714", "00.18S", "036.10E", "1901", "KE"],
  ["NAROK", "HKNO", "None", "63737", "01.07S", "035.49E", "1890", "KE"],
  ["NAIROBI/WILSON", "HKNW", "None", "63742", "01.19S", "036.49E", "1679", "KE"],
  ["NANYUKI", "HKNY", "None", "None", "00.04S", "037.01E", "1905", "KE"],
  ["MOI AIRBASE", "HKRE", "None", "None", "01.17S", "036.52E", "1627", "KE"],
  ["VOI", "HKVO", "None", "63793", "03.23S", "038.32E", "579", "KE"],
  ["WAJIR", "HKWJ", "None", "63671", "01.45N", "040.04E", "244", "KE"],
  ["SIRTE", "HLGD", "None", "None", "31.04N", "016.36E", "81", "LY"],
  ["GHAT", "HLGT", "None", "62212", "25.07N", "010.07E", "692", "LY"],
  ["KUFRA (MIL/CIV)", "HLKF", "None", "62271", "24.13N", "023.18E", "435", "LY"],
  ["BENINA/BENGHAZI", "HLLB", "None", "62053", "32.04N", "020.16E", "132", "LY"],
  ["MITIGA", "HLLM", "None", "None", "32.54N", "013.17E", "11", "LY"],
  ["EL BEIDA", "HLLQ", "None", "None", "32.47N", "021.58E", "657", "LY"],
  ["SEBHA (AUT)", "HLLS", "None", "62124", "26.59N", "014.28E", "435", "LY"],
  ["TRIPOLI INTL ARP", "HLLT", "None", "62010", "32.40N", "013.09E", "81", "LY"],
  ["HON", "HLON", "None", "None", "29.07N", "015.58E", "280", "LY"],
  ["GHADAMES", "HLTD", "None", "62103", "30.07N", "009.30E", "357", "LY"],
  ["GISENYI", "HRYG", "None", "64381", "01.40S", "029.15E", "1554", "RW"],
  ["BUTARE", "HRYI", "None", "64384", "02.36S", "029.43E", "1768", "RW"],
  ["KIGALI", "HRYR", "None", "64387", "01.58S", "030.07E", "1497", "RW"],
  ["RUHENGERI", "HRYU", "None", "64383", "01.30S", "029.37E", "1860", "RW"],
  ["KAMEMBE", "HRZA", "None", "64380", "02.28S", "028.55E", "1591", "RW"],
  ["AKOBO", "HSAK", "None", "None", "07.46N", "033.01E", "402", "SD"],
  ["ATBARA", "HSAT", "None", "62680", "17.41N", "033.58E", "345", "SD"],
  ["AWEIL/UWAYL", "HSAW", "None", "None", "08.46N", "027.23E", "414", "SD"],
  ["BOR", "HSBR", "None", "None", "06.12N", "031.33E", "420", "SD"],
  ["DONGOLA/DUNQULAH", "HSDN", "None", "62650", "19.10N", "030.28E", "226", "SD"],
  ["DAMAZIN", "HSDZ", "None", "62805", "11.46N", "034.22E", "470", "SD"],
  ["EL FASHER", "HSFS", "None", "62760", "13.37N", "025.19E", "730", "SD"],
  ["GEDAREF/AZAZA", "HSGF", "None", "62752", "14.01N", "035.23E", "599", "SD"],
  ["GENEINA", "HSGN", "None", "62770", "13.28N", "022.26E", "805", "SD"],
  ["KASSALA", "HSKA", "None", "62730", "15.28N", "036.23E", "500", "SD"],
  ["KOSTI/RABAK", "HSKI", "None", "62772", "13.10N", "032.40E", "381", "SD"],
  ["KADUGLI", "HSLI", "None", "62810", "11.00N", "029.43E", "499", "SD"],
  ["MARIDI", "HSMD", "None", "None", "04.55N", "029.28E", "749", "SD"],
  ["RUMBEK", "HSMK", "None", "None", "06.47N", "029.41E", "418", "SD"],
  ["NASIR", "HSNA", "None", "None", "08.37N", "033.04E", "399", "SD"],
  ["SHENDI", "HSND", "None", "62700", "16.41N", "033.25E", "360", "SD"],
  ["NYALA", "HSNL", "None", "62790", "12.03N", "024.52E", "658", "SD"],
  ["SENNAR", "HSNR", "None", "62762", "13.33N", "033.37E", "418", "SD"],
  ["EL OBEID", "HSOB", "None", "62771", "13.10N", "030.13E", "574", "SD"],
  ["PIBOR POST", "HSPI", "None", "62905", "06.47N", "033.07E", "510", "SD"],
  ["PORT SUDAN INTL", "HSPN", "None", "None", "19.25N", "037.13E", "138", "SD"],
  ["RAGA", "HSRJ", "None", "62871", "08.28N", "025.40E", "545", "SD"],
  ["RENK", "HSRN", "None", "62801", "11.45N", "032.46E", "282", "SD"],
  ["JUBA", "HSSJ", "None", "62941", "04.52N", "031.36E", "457", "SD"],
  ["MALAKAL", "HSSM", "None", "62840", "09.33N", "031.38E", "388", "SD"],
  ["PORT SUDAN", "HSSP", "None", "62641", "19.34N", "037.13E", "2", "SD"],
  ["KHARTOUM (CIV/MI", "HSSS", "None", "62721", "15.35N", "032.32E", "380", "SD"],
  ["HALFA (WADI)", "HSSW", "None", "62600", "21.49N", "031.28E", "183", "SD"],
  ["TORIT", "HSTR", "None", "None", "04.25N", "032.34E", "624", "SD"],
  ["YAMBIO", "HSYA", "None", "62940", "04.34N", "028.23E", "649", "SD"],
  ["ZALINGEI", "HSZA", "None", "None", "12.54N", "023.28E", "900", "SD"],
  ["ARUSHA", "HTAR", "None", "63789", "03.22S", "036.38E", "1387", "TZ"],
  ["BUKOBA", "HTBU", "None", "63729", "01.19S", "031.49E", "1137", "TZ"],
  ["DAR ES SALAAM AR", "HTDA", "None", "63894", "06.53S", "039.12E", "55", "TZ"],
  ["DODOMA", "HTDO", "None", "63862", "06.10S", "035.46E", "1120", "TZ"],
  ["IRINGA", "HTIR", "None", "63887", "07.40S", "035.45E", "1428", "TZ"],
  ["KIGOMA", "HTKA", "None", "63801", "04.52S", "029.40E", "885", "TZ"],
  ["KILWA MASOKO", "HTKI", "None", "None", "08.55S", "039.31E", "18", "TZ"],
  ["KILIMANJARO AIRP", "HTKJ", "None", "63791", "03.25S", "037.04E", "896", "TZ"],
  ["MBEYA", "HTMB", "None", "63932", "08.55S", "033.28E", "1707", "TZ"],
  ["MOROGORO (MET)", "HTMG", "None", "63866", "06.49S", "037.38E", "526", "TZ"],
  ["MOMBO", "HTMO", "None", "63818", "04.52S", "038.16E", "511", "TZ"],
  ["MOSHI", "HTMS", "None", "63790", "03.21S", "037.19E", "831", "TZ"],
  ["MTWARA", "HTMT", "None", "63971", "10.16S", "040.10E", "113", "TZ"],
  ["MUSOMA", "HTMU", "None", "63733", "01.30S", "033.47E", "1147", "TZ"],
  ["MWANZA", "HTMW", "None", "63756", "02.28S", "032.55E", "1140", "TZ"],
  ["NACHINGWEA", "HTNA", "None", "63969", "10.20S", "038.45E", "465", "TZ"],
  ["PEMBA/KARUME ARP", "HTPE", "None", "63845", "05.15S", "039.49E", "25", "TZ"],
  ["SAME", "HTSE", "None", "63816", "04.04S", "037.43E", "872", "TZ"],
  ["SONGEA", "HTSO", "None", "63962", "10.40S", "035.34E", "1067", "TZ"],
  ["SUMBAWANGA", "HTSU", "None", "None", "07.57S", "031.40E", "1804", "TZ"],
  ["SHINYANGA", "HTSY", "None", "None", "03.30S", "033.00E", "1100", "TZ"],
  ["TABORA AIRPORT", "HTTB", "None", "63832", "05.04S", "032.49E", "1190", "TZ"],
  ["TANGA", "HTTG", "None", "63844", "05.04S", "039.04E", "35", "TZ"],
  ["ZANZIBAR/KISAUNI", "HTZA", "None", "63870", "06.13S", "039.13E", "15", "TZ"],
  ["ARUA", "HUAR", "None", "63602", "03.02N", "030.55E", "1211", "UG"],
  ["ENTEBBE INTL ARP", "HUEN", "None", "63705", "00.02N", "032.27E", "1155", "UG"],
  ["FORT PORTAL", "HUFP", "None", "None", "00.40N", "030.16E", "1533", "UG"],
  ["GULU (MIL/CIV)", "HUGU", "None", "63630", "02.45N", "032.19E", "1105", "UG"],
  ["JINJA", "HUJI", "None", "63682", "00.27N", "033.10E", "1173", "UG"],
  ["KABALE", "HUKB", "None", "63726", "01.15S", "029.58E", "1869", "UG"],
  ["KASESE", "HUKS", "None", "63674", "00.10N", "030.06E", "961", "UG"]]

/-- `STATIONS` (database/stations.py 7417-7516). -/
noncomputable def stations74 : List StationRow := rows! [
  ["LIRA", "HULI", "None", "None", "02.15N", "032.53E", "1091", "UG"],
  ["MBARARA", "HUMA", "None", "63702", "00.33S", "030.36E", "1413", "UG"],
  ["MASINDI", "HUMI", "None", "63654", "01.40N", "031.43E", "1147", "UG"],
  ["MOROTO", "HUMO", "None", "None", "02.31N", "034.38E", "1280", "UG"],
  ["SOROTI", "HUSO", "None", "63658", "01.43N", "033.37E", "1123", "UG"],
  ["TORORO", "HUTO", "None", "63684", "00.40N", "034.10E", "1171", "UG"],
  ["ALEXANDER BAY", "FAAB", "None", "68406", "28.34S", "016.31E", "21", "ZA"],
  ["ALIWAL NORTH", "FAAN", "None", "68546", "30.43S", "026.43E", "1351", "ZA"],
  ["BRAKPAN", "FABB", "None", "None", "26.13S", "028.18E", "1615", "ZA"],
  ["BURGERSDORP", "FABD", "None", "None", "30.58S", "026.19E", "1437", "ZA"],
  ["BISHO", "FABE", "None", "None", "32.53S", "027.16E", "594", "ZA"],
  ["BLOEMFONTEIN/HER", "FABL", "None", "68442", "29.06S", "026.18E", "1348", "ZA"],
  ["BETHLEHEM AIRPOR", "FABM", "None", "68461", "28.15S", "028.19E", "1682", "ZA"],
  ["BARBERTON", "FABN", "None", "None", "25.43S", "031.00E", "800", "ZA"],
  ["BREDASDORP", "FABR", "None", "None", "34.31S", "020.01E", "50", "ZA"],
  ["BEAUFORT WEST (M", "FABY", "None", "68728", "32.21S", "022.34E", "842", "ZA"],
  ["COOKHOUSE", "FACH", "None", "None", "32.46S", "025.45E", "900", "ZA"],
  ["CAROLINA", "FACL", "None", "68380", "26.04S", "030.07E", "1700", "ZA"],
  ["CAPETOWN/DF MALA", "FACT", "None", "68816", "33.58S", "018.36E", "42", "ZA"],
  ["CALVINIA (MET)", "FACV", "None", "68618", "31.28S", "019.46E", "1000", "ZA"],
  ["CLANWILLIAM", "FACW", "None", "None", "32.10S", "018.52E", "150", "ZA"],
  ["DE AAR", "FADA", "None", "68536", "30.38S", "024.01E", "1247", "ZA"],
  ["DUNDEE", "FADD", "None", "None", "28.10S", "030.13E", "1286", "ZA"],
  ["DURNACOL", "FADH", "None", "None", "28.07S", "029.58E", "1500", "ZA"],
  ["DURBAN/LOUIS BOT", "FADN", "None", "68588", "29.58S", "030.56E", "8", "ZA"],
  ["DUNNOTTAR (SAAF)", "FADR", "None", "None", "26.21S", "028.28E", "1620", "ZA"],
  ["DE AAR MET", "FADY", "None", "None", "30.38S", "023.55E", "384", "ZA"],
  ["EAST LONDON/SCHO", "FAEL", "None", "68858", "33.01S", "027.49E", "125", "ZA"],
  ["ERMELO", "FAEO", "None", "None", "26.30S", "029.58E", "1737", "ZA"],
  ["ELLISRAS", "FAER", "None", "68156", "23.44S", "027.41E", "839", "ZA"],
  ["ESHOWE", "FAES", "None", "None", "28.52S", "031.26E", "487", "ZA"],
  ["ELLIOT", "FAET", "None", "None", "31.18S", "027.51E", "1533", "ZA"],
  ["FICKSBURG", "FAFB", "None", "None", "28.49S", "027.55E", "1620", "ZA"],
  ["FRANKFORT", "FAFF", "None", "68362", "27.17S", "028.31E", "1500", "ZA"],
  ["FRASERBURG", "FAFR", "None", "68624", "31.55S", "021.31E", "1267", "ZA"],
  ["GOBABIS", "FAGB", "None", "68116", "22.28S", "018.58E", "1449", "ZA"],
  ["GRAND CENTRAL", "FAGC", "None", "None", "25.59S", "028.08E", "1623", "ZA"],
  ["GOUGH ISLAND", "FAGE", "None", "68906", "40.21S", "009.52W", "54", "ZA"],
  ["GEORGE/P. W. BOT", "FAGG", "None", "68828", "34.00S", "022.22E", "193", "ZA"],
  ["JOHANNESBURG/RAN", "FAGM", "None", "None", "26.15S", "028.09E", "1672", "ZA"],
  ["GRAAFF REINET", "FAGR", "None", "68736", "32.15S", "024.31E", "754", "ZA"],
  ["GRAHAMSTOWN", "FAGT", "None", "None", "33.16S", "026.30E", "651", "ZA"],
  ["GRAVELOTTE", "FAGV", "None", "None", "23.53S", "030.40E", "532", "ZA"],
  ["GREYTOWN", "FAGY", "None", "None", "29.06S", "030.36E", "1100", "ZA"],
  ["HARMONY (PRIVATE", "FAHA", "None", "None", "28.04S", "026.52E", "1337", "ZA"],
  ["HUMANSDORP", "FAHD", "None", "None", "34.01S", "024.46E", "40", "ZA"],
  ["HENDRINA (PRIVAT", "FAHE", "None", "None", "26.01S", "029.36E", "1576", "ZA"],
  ["HEIDELBERG", "FAHG", "None", "None", "26.31S", "028.22E", "1560", "ZA"],
  ["HOEDSPRUIT (SAAF", "FAHS", "None", "68290", "24.22S", "031.01E", "500", "ZA"],
  ["PRETORIA/IRENE", "FAIR", "None", "68263", "25.55S", "028.13E", "1500", "ZA"],
  ["JOHANNESBURG CIT", "FAJB", "None", "None", "26.09S", "028.00E", "1626", "ZA"],
  ["JAGERSFONTEIN", "FAJF", "None", "None", "29.46S", "025.25E", "1400", "ZA"],
  ["KLERKSDORP", "FAKD", "None", "None", "26.52S", "026.43E", "1355", "ZA"],
  ["KIMBERLEY/BJ VOR", "FAKM", "None", "68438", "28.48S", "024.46E", "1192", "ZA"],
  ["KRUGER MPUMALANG", "FAKN", "None", "None", "25.23S", "031.06E", "862", "ZA"],
  ["KOMATIPOORT", "FAKP", "None", "None", "25.25S", "031.55E", "152", "ZA"],
  ["KROONSTAD", "FAKS", "None", "68352", "27.40S", "027.15E", "1350", "ZA"],
  ["KLEINSEE", "FAKZ", "None", "None", "29.37S", "017.04E", "80", "ZA"],
  ["LANSERIA (CIV/MI", "FALA", "None", "None", "25.55S", "027.55E", "1377", "ZA"],
  ["LIME ACRES(PRIVA", "FALC", "None", "None", "28.22S", "023.26E", "1494", "ZA"],
  ["DURBAN SHAKA", "FALE", "None", "68592", "29.37S", "031.07E", "109", "ZA"],
  ["LICHTENBURG", "FALI", "None", "None", "26.10S", "026.11E", "1486", "ZA"],
  ["MAKHADO AFB", "FALM", "None", "None", "23.10S", "029.42E", "935", "ZA"],
  ["LOUIS TRICHARDT", "FALO", "None", "None", "23.03S", "029.52E", "922", "ZA"],
  ["LICHTENBURG", "FALT", "None", "None", "26.10S", "026.10E", "1486", "ZA"],
  ["LANGEBAANWEG (SA", "FALW", "None", "68714", "32.58S", "018.10E", "0", "ZA"],
  ["LADYSMITH", "FALY", "None", "68476", "28.34S", "029.46E", "1100", "ZA"],
  ["MIDDELBURG", "FAMB", "None", "68638", "31.28S", "025.01E", "1300", "ZA"],
  ["MARION ISLAND", "FAME", "None", "68994", "46.52S", "037.52E", "22", "ZA"],
  ["MARGATE", "FAMG", "None", "None", "30.51S", "030.21E", "151", "ZA"],
  ["MAFIKENG", "FAMK", "None", "None", "25.52S", "025.38E", "1400", "ZA"],
  ["MMABATHO INTL AR", "FAMM", "None", "68242", "25.48S", "025.31E", "1277", "ZA"],
  ["MOSSEL BAY (LGT-", "FAMO", "None", "68928", "34.10S", "022.08E", "59", "ZA"],
  ["MPACHA (CIV/MIL)", "FAMP", "None", "None", "17.37S", "024.10E", "985", "ZA"],
  ["MARIEPSKOP (SAAF", "FAMR", "None", "None", "24.33S", "030.52E", "1927", "ZA"],
  ["MEYERTON", "FAMT", "None", "None", "26.33S", "028.01E", "1500", "ZA"],
  ["NEWCASTLE", "FANC", "None", "None", "27.46S", "029.58E", "1251", "ZA"],
  ["NEW HANOVER", "FANH", "None", "None", "29.25S", "030.26E", "750", "ZA"],
  ["NEW LARGO", "FANL", "None", "None", "25.55S", "028.58E", "1700", "ZA"],
  ["NELSPRUIT", "FANS", "None", "68288", "25.25S", "030.58E", "674", "ZA"],
  ["JOHANNESBURG/TAM", "FAOR", "None", "68368", "26.07S", "028.13E", "1700", "ZA"],
  ["ONDANGWA (MIL/CI", "FAOA", "None", "68006", "17.55S", "015.58E", "1100", "ZA"],
  ["OVERBERG", "FAOB", "None", "None", "34.36S", "020.16E", "75", "ZA"],
  ["OUDTSHOORN", "FAOH", "None", "68826", "33.34S", "022.13E", "359", "ZA"],
  ["PIETERSBURG (SAA", "FAPB", "None", "68174", "23.52S", "029.26E", "1222", "ZA"],
  ["PLETTENBERG BAY", "FAPG", "None", "None", "34.05S", "023.20E", "139", "ZA"],
  ["PRINCE ALBERT RO", "FAPC", "None", "None", "33.13S", "022.01E", "900", "ZA"],
  ["PORT ELIZABETH", "FAPE", "None", "68842", "33.58S", "025.36E", "60", "ZA"],
  ["PHALABORWA(PRIVA", "FAPH", "None", "68190", "23.55S", "031.08E", "400", "ZA"],
  ["PIETERSBURG(CIVI", "FAPI", "None", "None", "23.53S", "029.28E", "1327", "ZA"],
  ["PORT ST. JOHNS (", "FAPJ", "None", "68674", "31.37S", "029.33E", "47", "ZA"],
  ["PIETERMARITZBURG", "FAPM", "None", "None", "29.38S", "030.23E", "739", "ZA"],
  ["PILANESBERG", "FAPN", "None", "None", "25.20S", "027.10E", "1039", "ZA"],
  ["POLOKWANE INTL", "FAPP", "None", "None", "23.50S", "029.27E", "1242", "ZA"],
  ["PRETORIA (MET)", "FAPR", "None", "68262", "25.43S", "028.10E", "1322", "ZA"],
  ["POTCHEFSTROOM(SA", "FAPS", "None", "68351", "26.40S", "027.06E", "1400", "ZA"],
  ["QUEENSTOWN", "FAQT", "None", "68648", "31.53S", "026.52E", "1086", "ZA"],
  ["RICHARD'S BAY", "FARB", "None", "68498", "28.48S", "032.06E", "0", "ZA"],
  ["FARAULEP ISLAND", "FARP", "None", "99446", "08.16N", "144.33E", "2", "ZA"],
  ["RUNDU (MIL/CIV)", "FARU", "None", "None", "17.55S", "019.46E", "1100", "ZA"]]

/-- `STATIONS` (database/stations.py 7517-7616). -/
noncomputable def stations75 : List StationRow := rows! [
  ["SPRINGBOK", "FASB", "None", "68512", "29.40S", "017.52E", "990", "ZA"],
  ["SPRINGS", "FASI", "None", "None", "26.15S", "028.24E", "1628", "ZA"],
  ["SWARTKOP (SAAF)", "FASK", "None", "None", "25.49S", "028.10E", "1457", "ZA"],
  ["SISHEN", "FASS", "None", "None", "27.38S", "023.00E", "1173", "ZA"],
  ["TRISTAN DA CUNHA", "FATC", "None", "68902", "37.02S", "012.19W", "23", "ZA"],
  ["TSUMEB (PRIVATE)", "FATM", "None", "None", "19.16S", "017.43E", "1327", "ZA"],
  ["TZANEEN", "FATZ", "None", "None", "23.49S", "030.19E", "583", "ZA"],
  ["ULUNDI", "FAUL", "None", "None", "28.19S", "031.25E", "525", "ZA"],
  ["UPINGTON/PIERRE", "FAUP", "None", "68424", "28.23S", "021.16E", "836", "ZA"],
  ["UMTATA/KD MATANZ", "FAUT", "None", "68668", "31.31S", "028.40E", "752", "ZA"],
  ["VEREENIGING", "FAVV", "None", "None", "26.34S", "027.58E", "1483", "ZA"],
  ["VRYBURG", "FAVB", "None", "68338", "26.59S", "024.44E", "1195", "ZA"],
  ["DURBAN/VIRGINIA", "FAVG", "None", "None", "29.46S", "031.04E", "6", "ZA"],
  ["VREDENDAL", "FAVR", "None", "68614", "31.40S", "018.30E", "34", "ZA"],
  ["VICTORIA WEST", "FAVW", "None", "None", "31.23S", "023.07E", "1256", "ZA"],
  ["VRYHEID", "FAVY", "None", "None", "27.46S", "030.48E", "1158", "ZA"],
  ["WONDERBOOM/PRETO", "FAWB", "None", "None", "25.38S", "028.13E", "1248", "ZA"],
  ["WINDHOEK", "FAWE", "None", "68110", "22.34S", "017.06E", "1700", "ZA"],
  ["WITBANK", "FAWI", "None", "None", "25.50S", "029.12E", "1553", "ZA"],
  ["WATERKLOOF (SAAF", "FAWK", "None", "68264", "25.49S", "028.13E", "1500", "ZA"],
  ["WELKOM", "FAWM", "None", "68346", "28.00S", "026.40E", "1341", "ZA"],
  ["YSTERPLANT (SAAF", "FAYP", "None", "None", "33.53S", "018.30E", "16", "ZA"],
  ["ZASTRON", "FAZA", "None", "None", "30.18S", "027.07E", "1300", "ZA"],
  ["WINDHOEK/EROS(SA", "FAWW", "None", "None", "22.34S", "017.06E", "1725", "ZA"],
  ["J. G. STRIJDOM", "FAWH", "None", "None", "22.28S", "017.28E", "1700", "ZA"],
  ["JAN SMUTS", "FAJS", "None", "None", "26.07S", "028.13E", "1700", "ZA"],
  ["FRANCISTOWN", "FBFT", "None", "68054", "21.10S", "027.29E", "1000", "BW"],
  ["GHANZI", "FBGZ", "None", "68024", "21.41S", "021.38E", "1100", "BW"],
  ["JWANENG (PRIVATE", "FBJW", "None", "68234", "24.36S", "024.40E", "1200", "BW"],
  ["KASANE", "FBKE", "None", "68029", "17.49S", "025.10E", "1000", "BW"],
  ["GBADOLITE", "FBLT", "None", "68040", "21.25S", "025.36E", "985", "BW"],
  ["MAUN", "FBMN", "None", "68032", "19.58S", "023.25E", "900", "BW"],
  ["MAHALAPYE", "FBMP", "None", "None", "23.04S", "026.50E", "1009", "BW"],
  ["ORAPA (PRIVATE)", "FBOR", "None", "None", "21.16S", "025.19E", "945", "BW"],
  ["SIR SERETSE KHAM", "FBSK", "None", "68240", "24.33S", "025.55E", "1005", "BW"],
  ["SUA-PAN", "FBSN", "None", "68038", "20.28S", "025.58E", "904", "BW"],
  ["SELEBI PHIKWE", "FBSP", "None", "None", "22.03S", "027.49E", "892", "BW"],
  ["SHAKAWE", "FBSW", "None", "68026", "18.22S", "021.51E", "1000", "BW"],
  ["TSHANE", "FBTE", "None", "68226", "24.01S", "021.52E", "1100", "BW"],
  ["TSABONG", "FBTS", "None", "68328", "26.03S", "022.26E", "1000", "BW"],
  ["PANDAMATENGA", "FBPA", "None", "None", "18.16S", "025.39E", "1064", "BW"],
  ["BRAZZAVILLE/MAYA", "FCBB", "None", "64450", "04.15S", "015.15E", "316", "CG"],
  ["DJAMBALA", "FCBD", "None", "64453", "02.31S", "014.46E", "790", "CG"],
  ["MOUYONDZI", "FCBM", "None", "64402", "03.58S", "013.55E", "512", "CG"],
  ["M'POUYA", "FCBO", "None", "64452", "02.37S", "016.13E", "312", "CG"],
  ["SIBITI", "FCBS", "None", "64405", "03.40S", "013.20E", "531", "CG"],
  ["GAMBOMA", "FCOG", "None", "64454", "01.52S", "015.52E", "377", "CG"],
  ["IMPFONDO", "FCOI", "None", "64459", "01.37N", "018.04E", "326", "CG"],
  ["MAKOUA", "FCOM", "None", "64456", "00.01S", "015.34E", "379", "CG"],
  ["SOUANKE", "FCOS", "None", "64460", "02.04N", "014.07E", "550", "CG"],
  ["OUESSO", "FCOU", "None", "64458", "01.37N", "016.03E", "352", "CG"],
  ["MAKABANA", "FCPA", "None", "64403", "03.28S", "012.37E", "161", "CG"],
  ["LOUBOMO", "FCPL", "None", "64401", "04.12S", "012.41E", "330", "CG"],
  ["POINTE-NOIRE", "FCPP", "None", "64400", "04.49S", "011.54E", "17", "CG"],
  ["KINSHASA/N'DJILI", "FZAA", "None", "64210", "04.23S", "015.27E", "312", "CD"],
  ["MOANDA", "FZAG", "None", "64201", "06.00S", "012.25E", "27", "CD"],
  ["KITONA (ZAI-AFB)", "FZAI", "None", "64203", "05.55S", "012.26E", "120", "CD"],
  ["MATADI/TSHIMPI", "FZAM", "None", "64207", "05.47S", "013.25E", "340", "CD"],
  ["INGA", "FZAN", "None", "64206", "05.31S", "013.34E", "277", "CD"],
  ["INONGO", "FZBA", "None", "64115", "01.58S", "018.16E", "300", "CD"],
  ["BANDUNDU", "FZBO", "None", "64108", "03.17S", "017.21E", "324", "CD"],
  ["KIKWIT", "FZCA", "None", "64222", "05.01S", "018.48E", "449", "CD"],
  ["KAHEMBA", "FZCF", "None", "None", "07.16S", "019.00E", "1060", "CD"],
  ["KENGE", "FZCS", "None", "64217", "04.55S", "017.04E", "563", "CD"],
  ["MBANDAKA", "FZEA", "None", "64005", "00.03N", "018.16E", "317", "CD"],
  ["BASANKUSU", "FZEN", "None", "64008", "01.13N", "019.48E", "353", "CD"],
  ["GEMENA", "FZFK", "None", "64006", "03.16N", "019.46E", "446", "CD"],
  ["LISALA", "FZGA", "None", "64014", "02.19N", "021.34E", "463", "CD"],
  ["BOENDE", "FZGN", "None", "64126", "00.13S", "020.51E", "351", "CD"],
  ["KISANGANI (ZAI-A", "FZIA", "None", "64040", "00.31N", "025.10E", "396", "CD"],
  ["ISIRO", "FZJA", "None", "64062", "02.46N", "027.38E", "764", "CD"],
  ["BUNIA", "FZKA", "None", "64076", "01.30N", "030.13E", "1239", "CD"],
  ["ANGO", "FZKO", "None", "None", "04.01N", "025.52E", "650", "CD"],
  ["BONDO", "FZKP", "None", "64021", "03.47N", "023.49E", "474", "CD"],
  ["BUKAVU/KAVUMU", "FZMA", "None", "64180", "02.31S", "028.51E", "1612", "CD"],
  ["BUTEMBO", "FZMB", "None", "64072", "00.07N", "029.16E", "1840", "CD"],
  ["GOMA INTL AIRPOR", "FZNA", "None", "64184", "01.40S", "029.13E", "1552", "CD"],
  ["RUTSHURU", "FZNC", "None", "64157", "01.10S", "029.26E", "1275", "CD"],
  ["KINDU", "FZOA", "None", "64155", "02.57S", "025.55E", "497", "CD"],
  ["KALIMA", "FZOD", "None", "64156", "02.36S", "026.33E", "569", "CD"],
  ["KASONGO", "FZOK", "None", "64264", "04.31S", "026.34E", "544", "CD"],
  ["LUBUMBASHI/LUANO", "FZQA", "None", "64360", "11.35S", "027.32E", "1309", "CD"],
  ["KOLWEZI", "FZQM", "None", "64328", "10.43S", "025.26E", "1526", "CD"],
  ["MITWABA", "FZQV", "None", "64348", "08.35S", "027.19E", "1579", "CD"],
  ["MANONO", "FZRA", "None", "64282", "07.16S", "027.25E", "633", "CD"],
  ["MOBA", "FZRB", "None", "None", "07.04S", "029.46E", "1132", "CD"],
  ["KALEMIE", "FZRF", "None", "64285", "05.52S", "029.10E", "818", "CD"],
  ["KONGOLO", "FZRQ", "None", "64276", "05.20S", "027.00E", "561", "CD"],
  ["KAMINA (ZAI-AFB)", "FZSA", "None", "64315", "08.37S", "025.15E", "1106", "CD"],
  ["SANDOA", "FZSD", "None", "64303", "09.37S", "022.51E", "921", "CD"],
  ["DILOLO", "FZSI", "None", "64301", "10.40S", "022.19E", "1028", "CD"],
  ["KAPANGA", "FZSK", "None", "None", "08.20S", "022.34E", "882", "CD"],
  ["KANIAMA", "FZTK", "None", "None", "07.31S", "024.10E", "845", "CD"],
  ["KANANGA", "FZUA", "None", "64235", "05.52S", "022.25E", "657", "CD"],
  ["TSHIKAPA", "FZUK", "None", "64228", "06.25S", "020.51E", "481", "CD"],
  ["LODJA", "FZVA", "None", "64146", "03.28S", "023.28E", "500", "CD"],
  ["LOMELA", "FZVE", "None", "None", "02.17S", "023.16E", "437", "CD"],
  ["ILEBO", "FZVS", "None", "64224", "04.19S", "020.34E", "420", "CD"],
  ["MBUJI-MAYI", "FZWA", "None", "64247", "06.07S", "023.34E", "677", "CD"],
  ["KABINDA/TUNTA", "FZWT", "None", "None", "06.07S", "024.28E", "890", "CD"]]

/-- `STATIONS` (database/stations.py 7617-7716). -/
noncomputable def stations76 : List StationRow := rows! [
  ["BIG BEND MET", "FDBB", "None", "68399", "26.51S", "031.55E", "94", "SZ"],
  ["JERICHO", "FDJR", "None", "None", "27.10S", "031.26E", "701", "SZ"],
  ["LOMAHASHA", "FDLM", "None", "68298", "25.59S", "031.59E", "570", "SZ"],
  ["LAVUMISA", "FDLV", "None", "68393", "27.16S", "031.49E", "315", "SZ"],
  ["MANZINI/MATSAPA", "FDMS", "None", "68396", "26.31S", "031.18E", "641", "SZ"],
  ["MAYIWANE", "FDMY", "None", "None", "25.52S", "031.31E", "480", "SZ"],
  ["NDZEVANE", "FDND", "None", "None", "26.58S", "031.58E", "207", "SZ"],
  ["NYONYANE", "FDNY", "None", "None", "26.07S", "031.27E", "320", "SZ"],
  ["MOTI", "FDOT", "None", "None", "26.42S", "031.26E", "341", "SZ"],
  ["PIGGS PEAK", "FDPP", "None", "68299", "25.58S", "031.15E", "1099", "SZ"],
  ["SITEKI", "FDST", "None", "68398", "26.26S", "031.57E", "667", "SZ"],
  ["NHLANGANO ARPT", "FDNH", "None", "None", "27.07S", "031.13E", "1074", "SZ"],
  ["VUVULANE", "FDVV", "None", "None", "26.04S", "031.53E", "276", "SZ"],
  ["ALINDAO", "FEFA", "None", "64662", "05.02N", "021.11E", "449", "CF"],
  ["OBO", "FEFB", "None", "64659", "05.24N", "026.30E", "651", "CF"],
  ["BANGUI/M'POKO (M", "FEFF", "None", "64650", "04.24N", "018.31E", "366", "CF"],
  ["BANGASSOU", "FEFG", "None", "64656", "04.43N", "022.49E", "500", "CF"],
  ["BIRAO", "FEFI", "None", "64658", "10.16N", "022.46E", "464", "CF"],
  ["BOSSEMBELE", "FEFL", "None", "64605", "05.16N", "017.37E", "674", "CF"],
  ["BAMBARI", "FEFM", "None", "64660", "05.50N", "020.38E", "475", "CF"],
  ["N'DELE", "FEFN", "None", "64654", "08.24N", "020.38E", "511", "CF"],
  ["BOUAR", "FEFO", "None", "64601", "05.58N", "015.37E", "1020", "CF"],
  ["BRIA", "FEFR", "None", "64655", "06.31N", "021.58E", "584", "CF"],
  ["BOSSANGOA", "FEFS", "None", "64610", "06.28N", "017.25E", "465", "CF"],
  ["BERBERATI", "FEFT", "None", "64600", "04.15N", "015.48E", "583", "CF"],
  ["YALINGA", "FEFY", "None", "64661", "06.30N", "023.16E", "602", "CF"],
  ["BANGUI", "FEFV", "None", "None", "04.24N", "018.31E", "366", "CF"],
  ["BATA (RIO MUNI)", "FGBT", "None", "64820", "01.53N", "009.48E", "8", "GQ"],
  ["MALABO/FERNANDO", "FGSL", "None", "64810", "03.45N", "008.43E", "56", "GQ"],
  ["WIDE AWAKE FIELD", "FHAW", "None", "61902", "07.58S", "014.24W", "79", "SH"],
  ["PLAISANCE", "FIMP", "None", "61990", "20.25S", "057.40E", "57", "MU"],
  ["RODRIGUES/PLAINE", "FIMR", "None", "61988", "19.45S", "063.22E", "31", "MU"],
  ["DIEGO GARCIA", "FJDG", "None", "61967", "07.19S", "072.25E", "3", "MU"],
  ["BANYO", "FKAB", "None", "64880", "06.46N", "011.49E", "1110", "CM"],
  ["BAFIA", "FKAF", "None", "64920", "04.43N", "011.15E", "500", "CM"],
  ["ABONG-MBANG", "FKAG", "None", "64960", "03.58N", "013.11E", "693", "CM"],
  ["LOMIE", "FKAL", "None", "64961", "03.08N", "013.37E", "624", "CM"],
  ["MEIGANGA", "FKAM", "None", "64882", "06.31N", "014.22E", "1027", "CM"],
  ["NKONGSAMBA", "FKAN", "None", "64911", "04.57N", "009.55E", "821", "CM"],
  ["BETARE-OYA", "FKAO", "None", "64901", "05.35N", "014.04E", "804", "CM"],
  ["YOKO", "FKAY", "None", "64900", "05.32N", "012.22E", "1031", "CM"],
  ["MAROUA-SALAK", "FKKA", "None", "64851", "10.26N", "014.15E", "422", "CM"],
  ["KRIBI", "FKKB", "None", "64971", "02.57N", "009.54E", "16", "CM"],
  ["TIKO", "FKKC", "None", "64912", "04.04N", "009.22E", "52", "CM"],
  ["DOUALA (CIV/MIL)", "FKKD", "None", "64910", "04.00N", "009.43E", "9", "CM"],
  ["ESEKA", "FKKE", "None", "None", "03.38N", "010.46E", "227", "CM"],
  ["MAMFE", "FKKF", "None", "64890", "05.43N", "009.16E", "126", "CM"],
  ["KAELE", "FKKH", "None", "None", "10.05N", "014.26E", "389", "CM"],
  ["BATOURI", "FKKI", "None", "64931", "04.28N", "014.22E", "656", "CM"],
  ["YAGOUA CITY", "FKKJ", "None", "None", "10.22N", "015.13E", "326", "CM"],
  ["MAROUA SALAK", "FKKL", "None", "None", "10.27N", "014.15E", "424", "CM"],
  ["KOUNDJA/FOUMBAN", "FKKM", "None", "64893", "05.39N", "010.45E", "1210", "CM"],
  ["NGAOUNDERE", "FKKN", "None", "64870", "07.20N", "013.34E", "1104", "CM"],
  ["BERTOUA", "FKKO", "None", "None", "04.32N", "013.43E", "670", "CM"],
  ["GAROUA", "FKKR", "None", "64860", "09.19N", "013.22E", "244", "CM"],
  ["DSCHANG", "FKKS", "None", "None", "05.27N", "010.04E", "1408", "CM"],
  ["TIBATI", "FKKT", "None", "None", "06.28N", "012.37E", "870", "CM"],
  ["BAMENDA", "FKKV", "None", "64892", "06.02N", "010.07E", "1239", "CM"],
  ["EBOLOWA", "FKKW", "None", "None", "02.53N", "011.10E", "628", "CM"],
  ["YOUNDE II", "FKKY", "None", "None", "03.49N", "011.31E", "751", "CM"],
  ["YAOUNDE", "FKYS", "None", "64950", "03.49N", "011.31E", "760", "CM"],
  ["MBALA (MIL/CIV)", "FLBA", "None", "67413", "08.50S", "031.19E", "1673", "ZM"],
  ["CHOMA", "FLCH", "None", "67753", "16.49S", "027.04E", "1278", "ZM"],
  ["CHIPATA", "FLCP", "None", "67581", "13.33S", "032.34E", "1032", "ZM"],
  ["ISOKA", "FLIK", "None", "67481", "10.07S", "032.37E", "1360", "ZM"],
  ["KAWAMBWA", "FLKB", "None", "67403", "09.48S", "029.04E", "1324", "ZM"],
  ["KAOMA", "FLKO", "None", "67641", "14.48S", "024.48E", "1213", "ZM"],
  ["KASAMA", "FLKS", "None", "67475", "10.13S", "031.07E", "1384", "ZM"],
  ["KABWE/MILLIKEN", "FLKW", "None", "67663", "14.26S", "028.28E", "1207", "ZM"],
  ["LUSAKA CITY AIRP", "FLLC", "None", "67666", "15.25S", "028.20E", "1280", "ZM"],
  ["LUNDAZI", "FLLD", "None", "67583", "12.16S", "033.12E", "1143", "ZM"],
  ["LIVINGSTONE (MIL", "FLLI", "None", "67743", "17.49S", "025.49E", "986", "ZM"],
  ["LIVINGSTONE NKUM", "FLHN", "None", "None", "17.49S", "025.49E", "986", "ZM"],
  ["LUSAKA KUANDA", "FLKK", "None", "67665", "15.19S", "028.27E", "1154", "ZM"],
  ["MANSA", "FLMA", "None", "67461", "11.05S", "028.51E", "1259", "ZM"],
  ["MFUWE", "FLMF", "MFU", "None", "13.16S", "031.56E", "561", "ZM"],
  ["MONGU", "FLMG", "None", "67633", "15.15S", "023.08E", "1053", "ZM"],
  ["MPIKA", "FLMP", "None", "67477", "11.54S", "031.25E", "1402", "ZM"],
  ["MWINILUNGA", "FLMW", "None", "67441", "11.45S", "024.25E", "1363", "ZM"],
  ["NDOLA", "FLND", "None", "67561", "13.00S", "028.38E", "1270", "ZM"],
  ["KASEMPA", "FLPA", "None", "67541", "13.31S", "025.51E", "1234", "ZM"],
  ["PETAUKE", "FLPE", "None", "67673", "14.15S", "031.16E", "1036", "ZM"],
  ["KABOMPO", "FLPO", "None", "67543", "13.35S", "024.11E", "1075", "ZM"],
  ["SERENJE", "FLSE", "None", "67571", "13.13S", "030.13E", "1384", "ZM"],
  ["NDOLA", "FLSK", "None", "None", "13.00S", "028.40E", "1261", "ZM"],
  ["SENANGA", "FLSN", "None", "67731", "16.06S", "023.16E", "1027", "ZM"],
  ["SESHEKE", "FLSS", "None", "67741", "17.28S", "024.18E", "951", "ZM"],
  ["SOLWEZI", "FLSW", "None", "67551", "12.10S", "026.22E", "1386", "ZM"],
  ["SAMFYA", "FLYA", "None", "67469", "11.20S", "029.31E", "1171", "ZM"],
  ["ZAMBEZI", "FLZB", "None", "67531", "13.31S", "023.07E", "1078", "ZM"],
  ["LUSAKA (MIL/CIV)", "FLLS", "None", "None", "15.19S", "028.26E", "1154", "ZM"],
  ["MORONI/HAHAIA IN", "FMCH", "None", "67002", "11.31S", "043.16E", "29", "KM"],
  ["MORONI/ICONI ARP", "FMCN", "None", "67001", "11.41S", "043.13E", "6", "KM"],
  ["ANJOUAN/OUANI", "FMCV", "None", "67004", "12.07S", "044.25E", "12", "KM"],
  ["DZAOUDZI/PAMANZI", "FMCZ", "None", "67005", "12.48S", "045.16E", "7", "KM"],
  ["ANTSIRABE", "FMME", "None", "67107", "19.49S", "047.04E", "1532", "KM"],
  ["MAHANORO", "FMMH", "None", "67113", "19.49S", "048.47E", "5", "KM"],
  ["ANTANANARIVO/IVA", "FMMI", "None", "67083", "18.48S", "047.28E", "1276", "KM"],
  ["MAINTIRANO", "FMMO", "None", "67073", "18.03S", "044.01E", "23", "KM"],
  ["SAINTE-MARIE ARP", "FMMS", "None", "67072", "17.04S", "049.49E", "3", "KM"]]

/-- `STATIONS` (database/stations.py 7717-7816). -/
noncomputable def stations77 : List StationRow := rows! [
  ["TAMATAVE/TOAMASI", "FMMT", "None", "67095", "18.07S", "049.23E", "6", "KM"],
  ["MORONDAVA", "FMMV", "None", "67117", "20.16S", "044.19E", "8", "KM"],
  ["DIEGO-SUAREZ/ANT", "FMNA", "None", "67009", "12.20S", "049.17E", "105", "KM"],
  ["ANDAPA", "FMND", "None", "67022", "14.39S", "049.37E", "474", "KM"],
  ["ANTALAHA/ANTSIRA", "FMNH", "None", "67025", "14.52S", "050.15E", "88", "KM"],
  ["ANALALAVA", "FMNL", "None", "67019", "14.37S", "047.46E", "57", "KM"],
  ["MAJUNGA/MAHAJANG", "FMNM", "None", "67027", "15.40S", "046.21E", "18", "KM"],
  ["NOSY BE/FASCENE", "FMNN", "None", "67012", "13.19S", "048.19E", "9", "KM"],
  ["BESALAMPY", "FMNQ", "None", "67037", "16.45S", "044.28E", "36", "KM"],
  ["SAMBAVA SUD", "FMNS", "None", "67023", "14.16S", "050.10E", "5", "KM"],
  ["VOHEMAR", "FMNV", "None", "67017", "13.22S", "050.00E", "5", "KM"],
  ["FT. DAUPHIN/TOLA", "FMSD", "None", "67197", "25.01S", "046.57E", "9", "KM"],
  ["FIANARANTSOA", "FMSF", "None", "67137", "21.26S", "047.06E", "1109", "KM"],
  ["FARAFANGANA", "FMSG", "None", "67157", "22.48S", "047.49E", "6", "KM"],
  ["MANANJARY", "FMSM", "None", "67143", "21.11S", "048.22E", "6", "KM"],
  ["RANOHIRA", "FMSO", "None", "67152", "22.33S", "045.23E", "824", "KM"],
  ["MOROMBE", "FMSR", "None", "67131", "21.45S", "043.22E", "4", "KM"],
  ["TULEAR/TOLIARA", "FMST", "None", "67161", "23.22S", "043.43E", "8", "KM"],
  ["ST. DENIS/GILLOT", "FMEE", "None", "61980", "20.52S", "055.31E", "25", "FR"],
  ["ST. PIERRE/FONDS", "FMEP", "None", "61984", "21.19S", "055.25E", "53", "FR"],
  ["BENGUELA/MONBACA", "FNBG", "None", "66310", "12.37S", "013.24E", "36", "AO"],
  ["CABINDA", "FNCA", "None", "66104", "05.32S", "012.10E", "20", "AO"],
  ["HUAMBO/NOVA LISB", "FNHU", "None", "66318", "12.49S", "015.46E", "1701", "AO"],
  ["BIE/KUITO/SILVA", "FNKU", "None", "66325", "12.22S", "016.56E", "1699", "AO"],
  ["LOBITO", "FNLB", "None", "66305", "12.22S", "013.31E", "3", "AO"],
  ["LUANDA/4 DE FEVE", "FNLU", "None", "66160", "08.50S", "013.13E", "70", "AO"],
  ["MALANGE", "FNMA", "None", "66215", "09.33S", "016.22E", "1142", "AO"],
  ["MENONGUE EAST/SE", "FNME", "None", "66410", "14.39S", "017.40E", "1343", "AO"],
  ["PORTO AMBOIM", "FNPA", "None", "66240", "10.41S", "013.45E", "5", "AO"],
  ["SAURIMO/HENRIQUE", "FNSA", "None", "66226", "09.41S", "020.26E", "1093", "AO"],
  ["WAKU KUNGU/CELA", "FNWK", "None", "66270", "11.25S", "015.07E", "1304", "AO"],
  ["N'ZETO/AMBRIZETE", "FNZE", "None", "66130", "07.13S", "012.52E", "17", "AO"],
  ["MOUILA CITY", "FOGM", "None", "64550", "01.52S", "011.01E", "89", "GA"],
  ["LAMBARENE", "FOGR", "None", "64551", "00.43S", "010.13E", "26", "GA"],
  ["BITAM", "FOOB", "None", "64510", "02.04N", "011.28E", "599", "GA"],
  ["COCOBEACH", "FOOC", "None", "64504", "01.00N", "009.35E", "13", "GA"],
  ["MOANDA", "FOOD", "None", "64565", "01.31S", "013.16E", "573", "GA"],
  ["MEKAMBO", "FOOE", "None", "64545", "01.01N", "013.55E", "501", "GA"],
  ["PORT GENTIL", "FOOG", "None", "64501", "00.42S", "008.45E", "4", "GA"],
  ["MAKOKOU/EPASSENG", "FOOK", "None", "64556", "00.34N", "012.52E", "515", "GA"],
  ["LIBREVILLE/LEON", "FOOL", "None", "64500", "00.27N", "009.25E", "15", "GA"],
  ["MITZIC", "FOOM", "None", "64552", "00.46N", "011.31E", "583", "GA"],
  ["FRANCEVILLE/MVEN", "FOON", "None", "None", "01.38S", "013.25E", "441", "GA"],
  ["LASTOURSVILLE", "FOOR", "None", "64560", "00.49S", "012.43E", "485", "GA"],
  ["TCHIBANGA", "FOOT", "None", "64507", "02.51S", "011.01E", "79", "GA"],
  ["MAYUMBA", "FOOY", "None", "64503", "03.25S", "010.39E", "34", "GA"],
  ["PRINCIPE ISLAND", "FPPR", "None", "61934", "01.38N", "007.25E", "5", "ST"],
  ["SAO TOME IL/SALA", "FPST", "None", "61931", "00.22N", "006.43E", "13", "ST"],
  ["ANGOCHE", "FQAG", "None", "67273", "16.13S", "039.53E", "62", "MZ"],
  ["BEIRA", "FQBR", "None", "67297", "19.48S", "034.53E", "16", "MZ"],
  ["CUAMBA", "FQCB", "None", "67231", "14.49S", "036.31E", "607", "MZ"],
  ["CHIMOIO", "FQCH", "None", "67295", "19.09S", "033.26E", "732", "MZ"],
  ["FURANCUNGO", "FQFU", "None", "None", "14.55S", "033.37E", "1262", "MZ"],
  ["INHAMBANE", "FQIN", "None", "67323", "23.52S", "035.22E", "15", "MZ"],
  ["LICHINGA", "FQLC", "None", "67217", "13.16S", "035.15E", "1365", "MZ"],
  ["LUMBO", "FQLU", "None", "67241", "15.01S", "040.40E", "11", "MZ"],
  ["MAPUTO/MAVALANE", "FQMA", "None", "67341", "25.55S", "032.34E", "44", "MZ"],
  ["MOCIMBOA DA PRAI", "FQMP", "None", "67205", "11.20S", "040.22E", "29", "MZ"],
  ["MARRUPA", "FQMR", "None", "67221", "13.43S", "037.32E", "838", "MZ"],
  ["MUTARARA", "FQMU", "None", "None", "17.22S", "035.01E", "89", "MZ"],
  ["NAMPULA", "FQNP", "None", "67237", "15.05S", "039.16E", "441", "MZ"],
  ["PEMBA", "FQPB", "None", "67215", "12.58S", "040.30E", "50", "MZ"],
  ["QUELIMANE", "FQQL", "None", "67283", "17.52S", "036.52E", "16", "MZ"],
  ["SONGO", "FQSG", "None", "None", "15.35S", "032.46E", "882", "MZ"],
  ["TETE", "FQTE", "None", "67261", "16.10S", "033.34E", "150", "MZ"],
  ["TETE/CHINGOZI", "FQTT", "None", "None", "16.06S", "033.37E", "160", "MZ"],
  ["ULONGUE", "FQUG", "None", "67229", "14.13S", "034.21E", "1311", "MZ"],
  ["VILANCULOS", "FQVL", "None", "67315", "22.00S", "035.19E", "21", "MZ"],
  ["XAI XAI", "FQXA", "None", "67335", "25.03S", "033.37E", "5", "MZ"],
  ["SEYCHELLES INTL", "FSIA", "None", "63980", "04.40S", "055.31E", "3", "SC"],
  ["SEYCHELLES INTL", "FSSS", "None", "63985", "04.40S", "055.31E", "4", "SC"],
  ["DESROCHES", "None", "None", "63998", "05.41S", "053.40E", "3", "SC"],
  ["LAI", "FTTH", "None", "None", "09.24N", "016.18E", "356", "TD"],
  ["SARH (CIV/MIL)", "FTTA", "None", "64750", "09.09N", "018.22E", "365", "TD"],
  ["BONGOR", "FTTB", "None", "None", "10.17N", "015.23E", "328", "TD"],
  ["ABECHE", "FTTC", "None", "64756", "13.50N", "020.51E", "549", "TD"],
  ["MOUNDOU", "FTTD", "None", "64706", "08.37N", "016.04E", "422", "TD"],
  ["ATI", "FTTI", "None", "64751", "13.13N", "018.19E", "334", "TD"],
  ["NDJAMENA (CIV/MI", "FTTJ", "None", "64700", "12.07N", "015.01E", "295", "TD"],
  ["BOKORO", "FTTK", "None", "64708", "12.22N", "017.03E", "301", "TD"],
  ["BOL-BERIM", "FTTL", "None", "64702", "13.25N", "014.43E", "292", "TD"],
  ["MONGO", "FTTM", "None", "64758", "12.07N", "018.25E", "428", "TD"],
  ["AM-TIMAN", "FTTN", "None", "64754", "11.01N", "020.16E", "436", "TD"],
  ["PALA", "FTTP", "None", "64709", "09.22N", "014.55E", "455", "TD"],
  ["ZOUAR", "FTTR", "None", "None", "20.26N", "016.34E", "809", "TD"],
  ["FAYA-LARGEAU (MI", "FTTY", "None", "64753", "18.00N", "019.10E", "234", "TD"],
  ["BARDAI-ZOUGRA(MI", "FTTZ", "None", "None", "21.26N", "017.03E", "1074", "TD"],
  ["BEITBRIDGE", "FVBB", "None", "67991", "22.13S", "030.00E", "457", "ZW"],
  ["BINGA", "FVBI", "None", "67755", "17.37S", "027.19E", "617", "ZW"],
  ["BULAWAYO/WOODVAL", "FVBU", "None", "67965", "20.01S", "028.37E", "1326", "ZW"],
  ["CHIPINGE", "FVCH", "None", "67983", "20.11S", "032.37E", "1132", "ZW"],
  ["CHIREDZI/BUFFALO", "FVCZ", "None", "67977", "21.01S", "031.34E", "430", "ZW"],
  ["VICTORIA FALLS", "FVFA", "None", "67843", "18.06S", "025.51E", "1062", "ZW"],
  ["GOKWE", "FVGO", "None", "67861", "18.13S", "028.55E", "1282", "ZW"],
  ["MUTARE/GRAND REE", "FVGR", "None", "None", "18.58S", "032.27E", "1019", "ZW"],
  ["HARARE/KUTSAGA(M", "FVHA", "None", "67775", "17.55S", "031.07E", "1503", "ZW"],
  ["KAROI", "FVKA", "None", "67765", "16.49S", "029.37E", "1344", "ZW"],
  ["KARIBA", "FVKB", "None", "67761", "16.31S", "028.52E", "518", "ZW"],
  ["MUTOKO", "FVMT", "None", "67781", "17.25S", "032.13E", "1244", "ZW"],
  ["MASVINGO", "FVMV", "None", "67975", "20.04S", "030.52E", "1095", "ZW"]]

/-- `STATIONS` (database/stations.py 7817-7916). -/
noncomputable def stations78 : List StationRow := rows! [
  ["RUSAPE", "FVRU", "None", "67881", "18.31S", "032.07E", "1430", "ZW"],
  ["GWERU/THORNHILL", "FVTL", "None", "67867", "19.26S", "029.51E", "1429", "ZW"],
  ["HWANGE NATL. PAR", "FVWN", "None", "67853", "18.37S", "027.00E", "1077", "ZW"],
  ["CHILEKA INTL ARP", "FWCL", "None", "67693", "15.40S", "034.58E", "767", "MW"],
  ["CHITIPA", "FWCT", "None", "67421", "09.41S", "033.16E", "1278", "MW"],
  ["DEDZA", "FWDZ", "None", "67689", "14.19S", "034.16E", "1632", "MW"],
  ["KARONGA", "FWKA", "None", "67423", "09.56S", "033.52E", "529", "MW"],
  ["KAMUZU INTL AIRP", "FWKI", "None", "67586", "13.46S", "033.46E", "1229", "MW"],
  ["NKHOTA KOTA", "FWKK", "None", "67591", "12.55S", "034.16E", "500", "MW"],
  ["LILONGWE INTL AR", "FWLI", "LLW", "None", "13.47S", "033.47E", "1230", "MW"],
  ["LILONGWE INTL AR", "FWLL", "None", "67587", "13.58S", "033.46E", "1067", "MW"],
  ["MANGOCHI", "FWMG", "None", "67695", "14.25S", "035.15E", "485", "MW"],
  ["MONKEY BAY", "FWMY", "None", "67690", "14.04S", "034.55E", "474", "MW"],
  ["MZIMBA", "FWMZ", "None", "67485", "11.52S", "033.37E", "1351", "MW"],
  ["SALIMA", "FWSM", "None", "67597", "13.45S", "034.34E", "513", "MW"],
  ["MZUZU", "FWUU", "None", "67489", "11.26S", "034.01E", "1253", "MW"],
  ["MASERU/MOSHOESHO", "FXMM", "None", "None", "29.28S", "027.33E", "1631", "LS"],
  ["MEJAMETALANA/MAS", "FXMU", "None", "68454", "29.18S", "027.30E", "1556", "LS"],
  ["AROAB", "FYAB", "None", "None", "26.46S", "019.38E", "986", "NA"],
  ["ARANOS", "FYAN", "None", "None", "24.09S", "019.07E", "1189", "NA"],
  ["AUS", "FYAS", "None", "None", "26.42S", "016.19E", "1480", "NA"],
  ["BAGANI", "FYBG", "None", "None", "18.07S", "021.38E", "1011", "NA"],
  ["EENHANA", "FYEN", "None", "None", "17.29S", "016.19E", "1116", "NA"],
  ["GOBABIS ARPT", "FYGB", "None", "None", "22.30S", "018.58E", "1442", "NA"],
  ["GOBABEB", "FYGO", "None", "68106", "23.34S", "015.03E", "400", "NA"],
  ["GROOTFONTEIN", "FYGF", "None", "68014", "19.36S", "018.07E", "1400", "NA"],
  ["HENTIES BAY", "FYGN", "None", "None", "19.36S", "018.07E", "1400", "NA"],
  ["HENTIES BAY", "FYHN", "None", "None", "22.07S", "014.17E", "3", "NA"],
  ["KARASBURG", "FYKB", "None", "None", "28.02S", "018.44E", "1017", "NA"],
  ["KEETMANSHOOP", "FYKT", "None", "68312", "26.31S", "018.07E", "1061", "NA"],
  ["KHORIXAS", "FYKX", "None", "None", "20.22S", "014.58E", "1026", "NA"],
  ["KATIMA MULILO", "FYKM", "None", "None", "17.38S", "024.11E", "958", "NA"],
  ["LUDERITZ/DIAZ PO", "FYLZ", "None", "None", "26.40S", "015.15E", "130", "NA"],
  ["MALTAHOEHE", "FYMH", "None", "None", "24.46S", "016.59E", "1375", "NA"],
  ["MARIENTAL ARPT", "FYML", "None", "None", "24.36S", "017.56E", "1113", "NA"],
  ["NOORDOEWER", "FYND", "None", "None", "28.45S", "017.37E", "150", "NA"],
  ["ONDANGWA", "FYOA", "OND", "None", "17.53S", "015.58E", "1095", "NA"],
  ["OKAHAO", "FYOH", "None", "None", "17.53S", "015.04E", "1097", "NA"],
  ["OUTJO AIRPORT", "FYOJ", "None", "None", "20.05S", "016.08E", "1321", "NA"],
  ["OKAKARARA", "FYOK", "None", "None", "20.36S", "017.28E", "1360", "NA"],
  ["OMARURU", "FYOM", "None", "None", "21.25S", "015.56E", "1217", "NA"],
  ["OKAUKUEJO ARPT", "FYOO", "None", "None", "19.09S", "015.55E", "1192", "NA"],
  ["OSHAKATI", "FYOS", "None", "None", "17.48S", "015.42E", "1097", "NA"],
  ["OOTMOED", "FYOT", "None", "None", "24.01S", "019.44E", "1200", "NA"],
  ["OTJIWARONGO ARPT", "FYOW", "None", "None", "20.26S", "016.40E", "1481", "NA"],
  ["REHOBETH", "FYRH", "None", "None", "23.19S", "017.05E", "1380", "NA"],
  ["ROOIKOP (SAAF/CI", "FYRK", "None", "None", "22.58S", "014.39E", "88", "NA"],
  ["RUNDU", "FYRU", "None", "68018", "17.55S", "019.46E", "1100", "NA"],
  ["TERRACE BAY", "FYTE", "None", "None", "19.58S", "013.01E", "5", "NA"],
  ["TSUMKWE", "FYTK", "None", "None", "19.35S", "020.27E", "1152", "NA"],
  ["TSUMEB", "FYTM", "None", "None", "19.16S", "017.44E", "1327", "NA"],
  ["OTJINENE", "FYTN", "None", "None", "21.08S", "018.47E", "443", "NA"],
  ["WALVIS BAY", "FYWB", "None", "None", "22.59S", "014.39E", "46", "NA"],
  ["EROS AIRPORT", "FYWE", "None", "None", "22.37S", "017.05E", "1700", "NA"],
  ["J. G. STRIJDOM", "FYWH", "None", "68112", "22.28S", "017.28E", "1700", "NA"],
  ["WINDHOEK", "FYWW", "None", "None", "22.34S", "017.06E", "1725", "NA"],
  ["KUNDUZ", "EQBA", "None", "99876", "36.40N", "068.55E", "433", "AF"],
  ["FEYZABAD", "EQBF", "None", "99881", "37.07N", "070.34E", "1200", "AF"],
  ["CAMP BASTION", "EQBH", "None", "99883", "31.52N", "064.12E", "900", "AF"],
  ["CHAGCHARAN", "EQBI", "None", "99884", "34.52N", "065.27E", "2252", "AF"],
  ["MARZAR I SHARIF", "EQBM", "None", "99888", "36.42N", "067.12E", "378", "AF"],
  ["KANDAHAR", "EQCB", "None", "99903", "31.31N", "065.52E", "1010", "AF"],
  ["TARIN KOWT", "EQTK", "None", "99915", "32.36N", "065.51E", "1357", "AF"],
  ["KABUL INTL (MIL)", "OAKB", "None", "40948", "34.33N", "069.13E", "1791", "AF"],
  ["ASMAR", "OAAS", "None", "40934", "35.01N", "071.25E", "880", "AF"],
  ["BEHSOOD", "OABD", "None", "None", "34.17N", "067.50E", "2975", "AF"],
  ["BAMIYAN", "OABN", "None", "40945", "34.49N", "067.49E", "2550", "AF"],
  ["WAZAKHAW", "OADW", "None", "None", "32.12N", "068.20E", "2800", "AF"],
  ["DARWAZ", "OADZ", "None", "40900", "38.25N", "070.47E", "1320", "AF"],
  ["KESHM", "OAEK", "None", "40917", "36.51N", "070.04E", "1000", "AF"],
  ["ISKACHEM/ESHKASH", "OAEM", "None", "40918", "36.42N", "071.34E", "2620", "AF"],
  ["ISLAM-QALA", "OAEQ", "None", "40935", "34.38N", "061.34E", "800", "AF"],
  ["FARAH", "OAFR", "None", "40974", "32.22N", "062.10E", "700", "AF"],
  ["FAIZABAD", "OAFZ", "None", "40904", "37.07N", "070.31E", "1200", "AF"],
  ["GULISTAN", "OAGL", "None", "None", "32.37N", "063.40E", "1375", "AF"],
  ["GHELMEEN", "OAGM", "None", "40941", "34.52N", "065.17E", "2070", "AF"],
  ["GHAZNI", "OAGN", "None", "40968", "33.31N", "068.25E", "2183", "AF"],
  ["GARDEZ", "OAGZ", "None", "40970", "33.37N", "069.14E", "2350", "AF"],
  ["HAJIGAK", "OAHJ", "None", "40933", "34.34N", "068.05E", "3400", "AF"],
  ["KHWAHAN", "OAHN", "None", "40901", "37.52N", "070.13E", "1040", "AF"],
  ["HERAT", "OAHR", "None", "40938", "34.13N", "062.13E", "964", "AF"],
  ["JALALABAD (MIL)", "OAJL", "None", "40954", "34.25N", "070.28E", "580", "AF"],
  ["JABUL-SARAJ", "OAJS", "None", "40932", "35.07N", "069.15E", "1630", "AF"],
  ["KAJAKI", "OAKJ", "None", "None", "32.10N", "065.05E", "1000", "AF"],
  ["KANDAHAR INTL AR", "OAKN", "KDH", "40990", "31.30N", "065.50E", "1010", "AF"],
  ["KALDAR", "OAKR", "None", "40924", "37.12N", "067.43E", "304", "AF"],
  ["KHOST", "OAKS", "None", "40971", "33.21N", "069.57E", "1146", "AF"],
  ["KALAT", "OAKT", "None", "None", "32.07N", "066.54E", "1565", "AF"],
  ["LAL", "OALL", "None", "40944", "34.30N", "066.17E", "2800", "AF"],
  ["MAIMANA/MIMANA", "OAMN", "None", "40922", "35.55N", "064.45E", "815", "AF"],
  ["MAZAR-I-SHARIF", "OAMS", "None", "40911", "36.42N", "067.12E", "378", "AF"],
  ["URGOON", "OAOG", "None", "40984", "32.55N", "069.07E", "2262", "AF"],
  ["PAGHMAN", "OAPG", "None", "None", "34.34N", "068.58E", "2114", "AF"],
  ["PAN JAO", "OAPJ", "None", "None", "34.22N", "067.01E", "2710", "AF"],
  ["QADES", "OAQD", "None", "40939", "34.47N", "063.25E", "1280", "AF"],
  ["QALA-I-NOW", "OAQN", "None", "40937", "35.00N", "063.07E", "914", "AF"],
  ["SHINDAND", "OASD", "None", "40957", "33.23N", "062.16E", "1150", "AF"],
  ["SHEBIRGHAN", "OASG", "None", "40908", "36.40N", "065.43E", "360", "AF"],
  ["KUNDUZ", "OAUZ", "None", "40913", "36.40N", "068.55E", "433", "AF"],
  ["YANGI QALA", "OAYQ", "None", "40928", "37.28N", "069.40E", "810", "AF"]]

/-- `STATIONS` (database/stations.py 7917-8016). -/
noncomputable def stations79 : List StationRow := rows! [
  ["ZEBAK", "OAZB", "None", "40920", "36.30N", "071.15E", "2600", "AF"],
  ["BAHRAIN INTL ARP", "OBBI", "None", "41150", "26.16N", "050.38E", "2", "BH"],
  ["ABHA", "OEAB", "None", "41112", "18.13N", "042.38E", "2084", "SA"],
  ["AL AHSA", "OEAH", "None", "40420", "25.16N", "049.28E", "172", "SA"],
  ["PRINCE ABDULMAJE", "OEAO", "None", "40401", "26.29N", "038.07E", "624", "SA"],
  ["AL BAHA", "OEBA", "None", "41055", "20.18N", "041.37E", "1656", "SA"],
  ["AL DAWADMI", "OEDM", "None", "None", "24.27N", "044.07E", "922", "SA"],
  ["BISHA (CIV/MIL)", "OEBH", "None", "41084", "19.58N", "042.37E", "1157", "SA"],
  ["KING FAHD INTL", "OEDF", "None", "None", "26.28N", "049.48E", "22", "SA"],
  ["DHAHRAN INTL (MI", "OEDR", "None", "40416", "26.16N", "050.10E", "17", "SA"],
  ["DAWADMI", "OEDW", "None", "40435", "24.30N", "044.23E", "990", "SA"],
  ["GIZAN", "OEGN", "None", "41140", "16.53N", "042.34E", "3", "SA"],
  ["GASSIM", "OEGS", "None", "40405", "26.18N", "043.46E", "650", "SA"],
  ["GURIAT", "OEGT", "None", "40360", "31.25N", "037.16E", "499", "SA"],
  ["HAIL", "OEHL", "None", "40394", "27.25N", "041.40E", "1013", "SA"],
  ["JUBAIL(NAVAL)", "OEJB", "None", "None", "27.03N", "049.23E", "8", "SA"],
  ["JEDDAH", "OEJD", "None", "41026", "21.30N", "039.12E", "15", "SA"],
  ["JEDDAH/KING ABDU", "OEJN", "None", "41024", "21.41N", "039.09E", "15", "SA"],
  ["KAIBER", "OEKB", "None", "None", "25.40N", "039.23E", "754", "SA"],
  ["AL KHARJ AB", "OEKJ", "None", "None", "24.04N", "047.35E", "503", "SA"],
  ["PRINCE SULTAN AB", "OEPS", "None", "None", "24.04N", "047.35E", "503", "SA"],
  ["KING KHALID MIL", "OEKK", "None", "40377", "27.53N", "045.31E", "413", "SA"],
  ["KHAMIS MUSHAIT A", "OEKM", "None", "41114", "18.18N", "042.47E", "2054", "SA"],
  ["MADINAH INTL ARP", "OEMA", "None", "40430", "24.33N", "039.42E", "631", "SA"],
  ["MAKKAH/MECCA", "OEMK", "None", "41030", "21.26N", "040.00E", "369", "SA"],
  ["MUAYH", "OEMH", "None", "None", "22.26N", "041.42E", "971", "SA"],
  ["NEJRAN", "OENG", "None", "41128", "17.37N", "044.25E", "1203", "SA"],
  ["HAFR AL-BATIN AR", "OEPA", "None", "40373", "28.19N", "046.07E", "355", "SA"],
  ["RAFHA (PRIVATE)", "OERF", "None", "40362", "29.37N", "043.28E", "447", "SA"],
  ["RIYADH/KING KHAL", "OERK", "None", "40437", "24.57N", "046.43E", "612", "SA"],
  ["ARAR", "OERR", "None", "40357", "30.53N", "041.07E", "552", "SA"],
  ["RIYADH (SAUD-AFB", "OERY", "None", "40438", "24.43N", "046.43E", "612", "SA"],
  ["SHARURAH (CIV/MI", "OESH", "None", "41136", "17.28N", "047.07E", "722", "SA"],
  ["AL-JOUF (CIV/MIL", "OESK", "None", "40361", "29.46N", "040.06E", "684", "SA"],
  ["TABUK (SAUD-AFB)", "OETB", "None", "40375", "28.22N", "036.37E", "770", "SA"],
  ["TAIF (CIV/MIL)", "OETF", "None", "41036", "21.28N", "040.32E", "1449", "SA"],
  ["TURAIF", "OETR", "None", "40356", "31.42N", "038.44E", "855", "SA"],
  ["WADI AL DAWASER", "OEWD", "None", "41061", "20.30N", "045.12E", "617", "SA"],
  ["WEJH", "OEWJ", "None", "40400", "26.11N", "036.28E", "16", "SA"],
  ["YENBO", "OEYN", "None", "40439", "24.08N", "038.04E", "8", "SA"],
  ["ABADAN INTL AIRP", "OIAA", "None", "40831", "30.22N", "048.15E", "11", "IR"],
  ["DEZFUL (IRAN-AFB", "OIAD", "None", "40795", "32.26N", "048.24E", "143", "IR"],
  ["AGHA JARI", "OIAG", "None", "40833", "30.46N", "049.40E", "29", "IR"],
  ["GACH SARAN(PRIVA", "OIAH", "None", "40835", "30.20N", "050.50E", "738", "IR"],
  ["MASJED-SOLEYMAN", "OIAI", "None", "40812", "32.00N", "049.16E", "372", "IR"],
  ["BANDAR MAHSHAHR", "OIAM", "None", "40832", "30.33N", "049.09E", "4", "IR"],
  ["AHWAZ", "OIAW", "None", "40811", "31.19N", "048.46E", "22", "IR"],
  ["BUSHEHR (CIV/AFB", "OIBB", "None", "40858", "28.58N", "050.49E", "19", "IR"],
  ["KISH ISLAND", "OIBK", "KIH", "None", "26.32N", "053.59E", "30", "IR"],
  ["BANDAR LENGEH", "OIBL", "None", "40883", "26.32N", "054.49E", "14", "IR"],
  ["KERMANSHAH/BAKTA", "OICC", "None", "40766", "34.20N", "047.10E", "1322", "IR"],
  ["GHASRE-SHIRIN", "OICG", "None", "40765", "34.31N", "045.34E", "378", "IR"],
  ["BORUJERD", "OICJ", "None", "None", "33.54N", "048.45E", "1600", "IR"],
  ["KHORAM ABAD", "OICK", "KHD", "None", "33.26N", "048.17E", "1155", "IR"],
  ["SANANDAJ", "OICS", "None", "40747", "35.15N", "047.01E", "1373", "IR"],
  ["KASHAN", "OIFK", "None", "40785", "33.54N", "051.35E", "982", "IR"],
  ["ESFAHAN S B INTL", "OIFM", "None", "40800", "32.45N", "051.52E", "1542", "IR"],
  ["SHAHRE-KORD", "OIFS", "None", "40798", "32.19N", "050.51E", "2078", "IR"],
  ["RASHT", "OIGG", "None", "40719", "37.20N", "049.36E", "-13", "IR"],
  ["KERMANSHAH", "OIGK", "None", "None", "34.17N", "047.07E", "1322", "IR"],
  ["HAMADAN", "OIHH", "None", "None", "34.52N", "048.33E", "1757", "IR"],
  ["ARAK", "OIHR", "None", "40769", "34.08N", "049.51E", "1658", "IR"],
  ["TEHRAN/MEHRABAD", "OIII", "None", "40754", "35.41N", "051.18E", "1191", "IR"],
  ["GHAZVIN", "OIIK", "None", "40731", "36.15N", "050.03E", "1278", "IR"],
  ["KARAJ/PAYAM", "OIIP", "None", "None", "35.47N", "050.50E", "1271", "IR"],
  ["GHOM/QOM", "OIIQ", "None", "None", "34.38N", "050.53E", "928", "IR"],
  ["SEMNAN", "OIIS", "None", "40757", "35.23N", "053.40E", "1115", "IR"],
  ["BANDAR ABBAS INT", "OIKB", "None", "40875", "27.13N", "056.22E", "10", "IR"],
  ["KERMAN", "OIKK", "None", "40841", "30.15N", "056.58E", "1754", "IR"],
  ["BAM", "OIKM", "None", "40854", "29.05N", "058.27E", "985", "IR"],
  ["MINAB", "OIKO", "None", "None", "27.08N", "057.06E", "27", "IR"],
  ["GHESHM/DAYRESTAN", "OIKQ", "None", "None", "26.45N", "055.54E", "12", "IR"],
  ["BIRJAND", "OIMB", "None", "40809", "32.54N", "059.17E", "1491", "IR"],
  ["TORBAT-HEYDARIEH", "OIMH", "None", "40762", "35.16N", "059.13E", "1333", "IR"],
  ["MASHHAD (AFB/CIV", "OIMM", "None", "40745", "36.14N", "059.37E", "980", "IR"],
  ["BOJNOURD", "OIMN", "None", "40723", "37.29N", "057.18E", "1074", "IR"],
  ["KASMAR", "OIMQ", "None", "None", "35.14N", "058.28E", "1140", "IR"],
  ["SABZEVAR", "OIMS", "None", "40743", "36.10N", "057.36E", "941", "IR"],
  ["TABAS", "OIMT", "None", "40791", "33.40N", "056.55E", "711", "IR"],
  ["KALALEH", "OINE", "None", "None", "37.23N", "055.27E", "130", "IR"],
  ["GORGAN", "OING", "None", "40738", "36.54N", "054.24E", "155", "IR"],
  ["GONBAD GHABUS", "OINK", "None", "None", "37.15N", "055.06E", "33", "IR"],
  ["NOSHAHR", "OINN", "None", "None", "36.40N", "051.28E", "-19", "IR"],
  ["RAMSAR", "OINR", "None", "40732", "36.53N", "050.40E", "-20", "IR"],
  ["SARY DASHTE NAZ", "OINZ", "None", "None", "36.38N", "053.12E", "11", "IR"],
  ["ABADEH", "OISA", "None", "40818", "31.02N", "052.47E", "2004", "IR"],
  ["FASA", "OISF", "None", "40859", "28.54N", "053.43E", "1383", "IR"],
  ["SHIRAZ (CIV/AFB)", "OISS", "None", "40848", "29.31N", "052.34E", "1491", "IR"],
  ["KHOY", "OITK", "None", "40703", "38.25N", "044.59E", "1107", "IR"],
  ["PARSABAD", "OITP", "None", "None", "39.36N", "047.53E", "77", "IR"],
  ["ARDABIL", "OITL", "None", "None", "38.20N", "048.25E", "1316", "IR"],
  ["ORUMIEH", "OITR", "None", "40712", "37.40N", "045.04E", "1312", "IR"],
  ["SAGHEZ", "OITS", "None", "40727", "36.15N", "046.16E", "1493", "IR"],
  ["TABRIZ(IRAN-AB/C", "OITT", "None", "40706", "38.08N", "046.14E", "1361", "IR"],
  ["ZANJAN", "OITZ", "None", "40729", "36.46N", "048.22E", "1663", "IR"],
  ["YAZD", "OIYY", "None", "40821", "31.54N", "054.17E", "1236", "IR"],
  ["ZABOL", "OIZB", "None", "40829", "31.06N", "061.33E", "489", "IR"],
  ["CHAH BAHAR (IR-A", "OIZC", "None", "40898", "25.27N", "060.23E", "6", "IR"],
  ["ZAHEDAN INTL ARP", "OIZH", "None", "40856", "29.28N", "060.55E", "1370", "IR"],
  ["IRANSHAHR", "OIZI", "None", "40879", "27.14N", "060.43E", "591", "IR"]]

end Verif
