import Verif.Model.Stations.Rows

/-
Rows of `STATIONS` (database/stations.py). Generated by tools/stations2lean.py.
-/

namespace Verif

/-- `STATIONS` (database/stations.py 6017-6116). -/
noncomputable def stations60 : List StationRow := rows! [
  ["BENTWATERS RAF", "EGVJ", "None", "None", "52.07N", "001.25E", "26", "GB"],
  ["BINBROOK RAF", "EGXB", "None", "03388", "53.27N", "000.12W", "108", "GB"],
  ["COWDEN", "EGXF", "None", "None", "53.51N", "006.05W", "15", "GB"],
  ["FINNINGLEY RAF", "EGXI", "None", "03360", "53.28N", "001.00W", "17", "GB"],
  ["DONNA NOOK NO.2", "EGXX", "None", "03385", "53.29N", "000.05E", "11", "GB"],
  ["COLTISHALL RAF", "EGYC", "None", "03495", "52.46N", "001.21E", "20", "GB"],
  ["AMSTERDAM/SCHIPH", "EHAM", "None", "06240", "52.19N", "004.47E", "9", "NL"],
  ["ZUID-LIMBURG/BEE", "EHBK", "None", "06380", "50.55N", "005.46E", "116", "NL"],
  ["DE BILT", "EHDB", "None", "06260", "52.06N", "005.10E", "4", "NL"],
  ["DEELEN RNLAFB", "EHDL", "None", "06275", "52.04N", "005.52E", "52", "NL"],
  ["EINDHOVEN RNLAFB", "EHEH", "None", "06370", "51.27N", "005.23E", "22", "NL"],
  ["GRONINGEN/EELDE", "EHGG", "None", "06280", "53.07N", "006.34E", "4", "NL"],
  ["GILZE-RIJEN RNLA", "EHGR", "None", "06350", "51.34N", "004.55E", "13", "NL"],
  ["DE KOOY (NAVY)", "EHKD", "None", "06235", "52.55N", "004.46E", "14", "NL"],
  ["LELYSTAD", "EHLE", "LEY", "06269", "52.27N", "005.31E", "-6", "NL"],
  ["LEEUWARDEN RNLAF", "EHLW", "None", "06270", "53.13N", "005.45E", "2", "NL"],
  ["ROTTERDAM AIRPOR", "EHRD", "None", "06344", "51.57N", "004.27E", "-5", "NL"],
  ["SOESTERBERG RNLA", "EHSB", "None", "06265", "52.07N", "005.16E", "13", "NL"],
  ["TWENTE RNLAFB", "EHTW", "None", "06290", "52.16N", "006.54E", "36", "NL"],
  ["TEXEL ISLAND", "EHTX", "None", "None", "53.04N", "004.45E", "3", "NL"],
  ["VALKENBURG (NAVY", "EHVB", "None", "06210", "52.10N", "004.25E", "2", "NL"],
  ["VOLKEL RNLAFB", "EHVK", "None", "06375", "51.38N", "005.42E", "21", "NL"],
  ["VLIELAND ISLAND", "EHVL", "None", "06242", "53.14N", "004.55E", "5", "NL"],
  ["WOENSDRECHT RNLA", "EHWO", "None", "06340", "51.27N", "004.19E", "17", "NL"],
  ["YPENBURG RNLAFB", "EHYB", "None", "06200", "52.01N", "004.20E", "1", "NL"],
  ["A12-CPP SEA", "EHAK", "None", "06205", "55.25N", "003.49E", "50", "NL"],
  ["D15-FA-1 SEA", "EHDV", "None", "06201", "54.19N", "002.56E", "50", "NL"],
  ["F3-FB-1SEA", "EHFD", "None", "06239", "54.51N", "004.42E", "50", "NL"],
  ["VLISSINGEN", "EHFS", "None", "None", "51.27N", "003.36E", "32", "NL"],
  ["F16-ASEA", "EHFZ", "None", "06206", "54.07N", "004.01E", "50", "NL"],
  ["J6-ASEA", "EHJA", "None", "06211", "53.49N", "002.57E", "50", "NL"],
  ["K13-ASEA", "EHJR", "None", "06252", "53.13N", "003.13E", "50", "NL"],
  ["K14-FA-1C SEA", "EHKV", "None", "06204", "53.16N", "003.38E", "50", "NL"],
  ["AWG-1SEA", "EHMA", "None", "06208", "53.30N", "005.57E", "50", "NL"],
  ["L9-FF-1SEA", "EHMG", "None", "06207", "53.37N", "004.58E", "50", "NL"],
  ["P11-BSEA", "EHPG", "None", "06203", "52.22N", "003.21E", "50", "NL"],
  ["HOORN-ASEA", "EHQE", "None", "06212", "52.55N", "004.09E", "50", "NL"],
  ["EURO PLATFORM", "EHSA", "None", "06321", "52.00N", "003.17E", "50", "NL"],
  ["GOEREE LESEA", "EHSC", "None", "06320", "51.56N", "003.40E", "50", "NL"],
  ["CORK ARPT/CORCAI", "EICK", "None", "03955", "51.51N", "008.28W", "162", "IE"],
  ["GALWAY", "EICM", "GWY", "None", "53.18N", "008.56W", "25", "IE"],
  ["DONEGAL ARPT", "EIDL", "CFN", "None", "55.03N", "008.20W", "9", "IE"],
  ["DUBLIN AIRPORT", "EIDW", "None", "03969", "53.25N", "006.15W", "85", "IE"],
  ["CONNAUGHT APT", "EIKN", "None", "03973", "53.55N", "008.49W", "64", "IE"],
  ["KERRY ARPT", "EIKY", "KIR", "None", "52.11N", "009.31W", "34", "IE"],
  ["CASEMENT (MIL)", "EIME", "None", "03967", "53.18N", "006.27W", "93", "IE"],
  ["SHANNON AIRPORT", "EINN", "None", "03962", "52.42N", "008.55W", "20", "IE"],
  ["SLIGO ARPT", "EISG", "SXL", "None", "54.17N", "008.36W", "3", "IE"],
  ["WATERFORD ARPT", "EIWF", "None", "None", "52.11N", "007.05W", "36", "IE"],
  ["VALENTIA OBSERV", "None", "None", "03953", "51.56N", "010.15W", "9", "IE"],
  ["TIRSTRUP (CIV/MI", "EKAH", "None", "06070", "56.17N", "010.37E", "25", "DK"],
  ["ANHOLT ISLAND (A", "EKAT", "None", "06078", "56.42N", "011.33E", "8", "DK"],
  ["AVNO (DAN-AFB)", "EKAV", "None", "06150", "55.04N", "011.46E", "4", "DK"],
  ["BILLUND AIRPORT", "EKBI", "None", "06104", "55.43N", "009.09E", "66", "DK"],
  ["COPENHAGEN/KASTR", "EKCH", "None", "06180", "55.37N", "012.40E", "5", "DK"],
  ["ESBJERG", "EKEB", "None", "06080", "55.31N", "008.33E", "29", "DK"],
  ["GORM(OIL)", "EKGC", "None", "None", "55.35N", "004.46E", "0", "DN"],
  ["TYRA OEST", "EKGF", "None", "06022", "55.43N", "004.48E", "43", "DK"],
  ["HALFDAN(OIL)", "EKHA", "None", "None", "55.32N", "005.00E", "0", "DN"],
  ["HARALD(OIL)", "EKHD", "None", "None", "56.20N", "004.16E", "0", "DN"],
  ["HORNS REV B HELI", "EKHN", "None", "None", "55.36N", "007.37E", "50", "DK"],
  ["LINDTORP AIRPORT", "EKHO", "None", "06054", "56.23N", "008.26E", "15", "DK"],
  ["HORNS REV B HELI", "EKHR", "None", "None", "55.31N", "007.53E", "50", "DK"],
  ["HADSUND", "EKHS", "None", "06048", "56.45N", "010.14E", "2", "DK"],
  ["KARUP (DAN-AFB)", "EKKA", "None", "06060", "56.18N", "009.07E", "52", "DK"],
  ["ARHUS/KIRSTINESM", "EKKM", "None", "None", "56.08N", "010.13E", "57", "DK"],
  ["MARIBO ARPT (AUT", "EKMB", "None", "06143", "54.42N", "011.26E", "5", "DK"],
  ["ODENSE/BELDRINGE", "EKOD", "None", "06120", "55.28N", "010.19E", "17", "DK"],
  ["COPENHAGEN/ROSKI", "EKRK", "None", "06170", "55.34N", "012.07E", "44", "DK"],
  ["RONNE", "EKRN", "None", "06190", "55.04N", "014.45E", "16", "DK"],
  ["SONDERBORG AIRPO", "EKSB", "None", "06118", "54.58N", "009.48E", "23", "DK"],
  ["SINDAL AIRPORT", "EKSN", "None", "06034", "57.30N", "010.13E", "28", "DK"],
  ["SKRYDSTRUP(DAN-A", "EKSP", "None", "06110", "55.13N", "009.16E", "40", "DK"],
  ["SYDFYNS/TASINGE", "EKST", "None", "06124", "55.01N", "010.34E", "6", "DK"],
  ["SKIVE AIRPORT", "EKSV", "None", "06062", "56.32N", "009.10E", "21", "DK"],
  ["TYRA(OIL)", "EKTE", "None", "None", "55.43N", "004.48E", "0", "DN"],
  ["THISTED ARPT (AU", "EKTS", "None", "06024", "57.04N", "008.41E", "7", "DK"],
  ["VANDEL (DAN-AFB)", "EKVA", "None", "06100", "55.43N", "009.13E", "74", "DK"],
  ["VAMDRUP (AUT/MAN", "EKVD", "None", "06108", "55.25N", "009.19E", "45", "DK"],
  ["SORVAAG/VAGAR", "EKVG", "None", "06010", "62.04N", "007.18W", "85", "DK"],
  ["STAUNING AIRPORT", "EKVJ", "None", "06066", "55.58N", "008.20E", "5", "DK"],
  ["VAERLOSE (DAN-AF", "EKVL", "None", "06160", "55.46N", "012.19E", "31", "DK"],
  ["ALBORG", "EKYT", "None", "06030", "57.06N", "009.52E", "3", "DK"],
  ["THORSHAVN (PORT)", "None", "None", "06011", "62.01N", "006.46W", "55", "DK"],
  ["KOEBENHAVN/JAEG", "None", "None", "06181", "55.46N", "012.32E", "50", "DK"],
  ["LUXEMBOURG (AUT)", "ELLX", "None", "06590", "49.38N", "006.12E", "379", "LU"],
  ["ALESUND/VIGRA", "ENAL", "None", "01210", "62.34N", "006.07E", "22", "NO"],
  ["ANDOYA/ANDENES(A", "ENAN", "None", "01010", "69.17N", "016.08E", "14", "NO"],
  ["NY-ALESUND II", "ENAS", "None", "01004", "78.55N", "011.55E", "8", "NO"],
  ["ALTA AIRPORT", "ENAT", "None", "01049", "69.58N", "023.22E", "3", "NO"],
  ["BJORNOYA ISLAND", "ENBJ", "None", "01028", "74.31N", "019.01E", "14", "NO"],
  ["FORDE/BRINGELAND", "ENBL", "None", "None", "61.24N", "005.46E", "150", "NO"],
  ["VOSS/BOMOEN", "ENBM", "None", "01336", "60.38N", "006.30E", "122", "NO"],
  ["BRONNOYSUND/BRON", "ENBN", "None", "01112", "65.28N", "012.13E", "9", "NO"],
  ["BODO VI (CIV/MIL", "ENBO", "None", "01152", "67.16N", "014.22E", "13", "NO"],
  ["BERGEN/FLESLAND", "ENBR", "None", "01311", "60.17N", "005.13E", "50", "NO"],
  ["BATSFJORD", "ENBS", "None", "None", "70.37N", "029.43E", "10", "NO"],
  ["BERLEVAG", "ENBV", "None", "01083", "70.52N", "029.01E", "13", "NO"],
  ["KRISTIANSAND/KJE", "ENCN", "None", "01452", "58.12N", "008.04E", "17", "NO"],
  ["DRAUGEN", "ENDR", "None", "None", "64.21N", "007.48E", "50", "NO"]]

/-- `STATIONS` (database/stations.py 6117-6216). -/
noncomputable def stations61 : List StationRow := rows! [
  ["BARDUFOSS (CIV/M", "ENDU", "None", "01023", "69.02N", "018.33E", "79", "NO"],
  ["EKOFISK OIL PLTF", "ENEK", "None", "01400", "56.32N", "003.15E", "3", "NO"],
  ["EVENES (CIV/MIL)", "ENEV", "None", "01183", "68.31N", "016.40E", "26", "NO"],
  ["STATFJORD B OILP", "ENFB", "None", "None", "61.12N", "001.50E", "10", "NO"],
  ["FAGERNES/LEIRIN", "ENFG", "None", "01368", "61.00N", "009.18E", "822", "NO"],
  ["FLORO", "ENFL", "None", "01310", "61.34N", "005.01E", "9", "NO"],
  ["FRIGG", "ENFR", "None", "None", "59.55N", "002.00E", "0", "NO"],
  ["GULLFAX (PLATFOR", "ENGC", "None", "None", "61.01N", "002.01E", "10", "NO"],
  ["OSLO/GARDERMOEN", "ENGM", "None", "01384", "60.12N", "011.06E", "204", "NO"],
  ["HAUGESUND/KARMOY", "ENHD", "None", "01408", "59.21N", "005.13E", "24", "NO"],
  ["HEIDRUN", "ENHE", "None", "None", "65.20N", "002.20E", "1", "NO"],
  ["HAMMERFEST", "ENHF", "None", "01052", "70.40N", "023.40E", "81", "NO"],
  ["HASVIK", "ENHK", "None", "None", "70.28N", "022.08E", "10", "NO"],
  ["HEIMDAL OILP", "ENHM", "None", "None", "59.34N", "002.14E", "10", "NO"],
  ["HOPEN ISLAND", "ENHO", "None", "01062", "76.30N", "025.04E", "10", "NO"],
  ["HONNINGSVAG/VALA", "ENHV", "None", "01068", "71.01N", "025.58E", "14", "NO"],
  ["JAN MAYEN(NOR-NA", "ENJA", "None", "01001", "70.55N", "008.40W", "9", "NO"],
  ["KAUTOKEINO II", "ENKA", "None", "01047", "69.01N", "023.04E", "330", "NO"],
  ["KRISTIANSUND/KVE", "ENKB", "None", "01223", "63.07N", "007.49E", "62", "NO"],
  ["KIRKENES (CIV/MI", "ENKR", "None", "01089", "69.43N", "029.53E", "91", "NO"],
  ["ULA PLATFORM (OI", "ENLA", "None", "None", "59.06N", "002.50E", "4", "NO"],
  ["LISTA/FARSUND (A", "ENLI", "None", "01428", "58.06N", "006.37E", "10", "NO"],
  ["LEKNES", "ENLK", "None", "01141", "68.09N", "013.37E", "26", "NO"],
  ["MEHAMN", "ENMH", "None", "01074", "71.01N", "027.49E", "13", "NO"],
  ["MOLDE/ARO", "ENML", "None", "01217", "62.45N", "007.16E", "3", "NO"],
  ["MOSJOEN/KJAERSTA", "ENMS", "None", "01122", "65.47N", "013.13E", "70", "NO"],
  ["BANAK/LAKSELV (A", "ENNA", "None", "01059", "70.04N", "024.58E", "8", "NO"],
  ["NORNE FPSO OILP", "ENNE", "None", "None", "66.02N", "008.05E", "10", "NO"],
  ["NARVIK III/FRAMN", "ENNK", "None", "01194", "68.28N", "017.23E", "23", "NO"],
  ["NAMSOS AIRPORT", "ENNM", "None", "01290", "64.28N", "011.34E", "2", "NO"],
  ["NOTODDEN", "ENNO", "None", "None", "59.34N", "009.13E", "19", "NO"],
  ["OSEBERG", "ENOA", "None", "None", "60.30N", "002.50E", "5", "NO"],
  ["ORLAND III(NOR-A", "ENOL", "None", "01241", "63.42N", "009.35E", "7", "NO"],
  ["ORSTA-VOLDA/HOVD", "ENOV", "None", "01209", "62.10N", "006.04E", "74", "NO"],
  ["TROLL-A HELI", "ENQA", "None", "None", "60.39N", "003.43E", "20", "NO"],
  ["TROLL-C HELI", "ENQC", "None", "None", "60.53N", "003.37E", "20", "NO"],
  ["SNORRE B OILP", "ENQR", "None", "None", "61.21N", "002.13E", "10", "NO"],
  ["MOIRANA", "ENRA", "None", "01151", "66.22N", "014.18E", "70", "NO"],
  ["RORVIK/RYUM", "ENRM", "None", "01282", "64.50N", "011.08E", "14", "NO"],
  ["ROROS AIRPORT", "ENRO", "None", "01289", "62.34N", "011.20E", "626", "NO"],
  ["ROST (NOR-AFB)", "ENRS", "None", "01107", "67.31N", "012.05E", "4", "NO"],
  ["RYGGE (NOR-AFB)", "ENRY", "None", "01494", "59.22N", "010.46E", "53", "NO"],
  ["SVALBARD/LONGYEA", "ENSB", "None", "01008", "78.15N", "015.28E", "29", "NO"],
  ["SANDANE/ANDA", "ENSD", "None", "01320", "61.49N", "006.07E", "60", "NO"],
  ["SNORRE A OILP", "ENSE", "None", "None", "61.27N", "002.09E", "10", "NO"],
  ["STATFJORD A OILP", "ENSF", "None", "None", "61.15N", "001.51E", "10", "NO"],
  ["SOGNDAL/HAUKASEN", "ENSG", "None", "01347", "61.08N", "007.07E", "497", "NO"],
  ["SVOLVAER/HELLE", "ENSH", "None", "01161", "68.15N", "014.40E", "9", "NO"],
  ["STORKMARKNES/SKA", "ENSK", "None", "01162", "68.34N", "015.01E", "3", "NO"],
  ["SLEIPNER A PLATF", "ENSL", "None", "None", "58.22N", "001.54E", "50", "NO"],
  ["SKIEN/GEITERYGGE", "ENSN", "None", "01475", "59.10N", "009.34E", "14", "NO"],
  ["STORD/SOERSTOKKE", "ENSO", "None", "None", "59.47N", "005.20E", "49", "NO"],
  ["SORKJOSEN", "ENSR", "None", "01046", "69.46N", "020.58E", "6", "NO"],
  ["SVARTNES", "ENSS", "None", "01097", "70.20N", "031.03E", "12", "NO"],
  ["SANDNESSJOEN/STO", "ENST", "None", "01116", "65.58N", "012.28E", "17", "NO"],
  ["TROMSO/LANGNES", "ENTC", "None", "01025", "69.41N", "018.55E", "10", "NO"],
  ["TORP (CIV/NOR-AF", "ENTO", "None", "01483", "59.12N", "010.16E", "88", "NO"],
  ["TRONDHEIM/VAERNE", "ENVA", "None", "01271", "63.28N", "010.55E", "17", "NO"],
  ["VADSO", "ENVD", "None", "01088", "70.04N", "029.51E", "39", "NO"],
  ["VALHALL (OIL)", "ENVH", "None", "None", "56.16N", "003.23E", "4", "NO"],
  ["STAVANGER/SOLA(A", "ENZV", "None", "01415", "58.52N", "005.37E", "9", "NO"],
  ["DAGALI", "ENDI", "None", "None", "60.25N", "008.31E", "798", "NO"],
  ["OSLO ENFB/01488", "None", "None", "None", "59.53N", "010.37E", "17", "NO"],
  ["HAKADAL/OSLO", "None", "None", "01488", "60.07N", "010.50E", "170", "NO"],
  ["WARSZAWA/BABICE", "EPBC", "None", "None", "52.16N", "020.55E", "107", "PL"],
  ["BYDGOSZDZ", "EPBY", "None", "None", "53.06N", "018.00E", "71", "PL"],
  ["CEWICE AIRBASE", "EPCE", "None", "None", "54.25N", "017.46E", "151", "PL"],
  ["DARTOWEK NAVAL", "EPDA", "None", "None", "54.24N", "016.21E", "4", "PL"],
  ["DEBLIN-IRENA", "EPDE", "None", "None", "51.33N", "021.54E", "120", "PL"],
  ["GDANSK/REBIECHOW", "EPGD", "None", "12150", "54.22N", "018.28E", "138", "PL"],
  ["INOWROCLAW INOWR", "EPIR", "None", "None", "52.50N", "018.20E", "79", "PL"],
  ["JEZOW SUDECKI", "EPJS", "None", "None", "50.56N", "015.46E", "559", "PL"],
  ["KRAKOW/BALICE", "EPKK", "None", "12566", "50.04N", "019.48E", "237", "PL"],
  ["KOSZALIN", "EPKO", "None", "12105", "54.12N", "016.09E", "34", "PL"],
  ["KATOWICE/MUCHOWI", "EPKM", "None", "None", "50.14N", "019.02E", "284", "PL"],
  ["KRZESINY ARPT", "EPKS", "None", "None", "52.20N", "016.58E", "81", "PL"],
  ["KATOWICE/PYRZOWI", "EPKT", "None", "12560", "50.28N", "019.05E", "284", "PL"],
  ["LUBLIN", "EPLB", "None", "None", "51.14N", "022.43E", "206", "PL"],
  ["LASK ARPT", "EPLK", "None", "None", "51.33N", "019.11E", "193", "PL"],
  ["LODZ/LUBLINEK", "EPLL", "None", "None", "51.43N", "019.24E", "184", "PL"],
  ["LECZYCA-LEZNICA", "EPLY", "None", "None", "52.00N", "019.09E", "115", "PL"],
  ["MALBORK", "EPMB", "None", "None", "54.02N", "019.08E", "5", "PL"],
  ["TWELTH AIRBASE", "EPMI", "None", "None", "53.24N", "016.05E", "140", "PL"],
  ["MINSK MAZOWIECKI", "EPMM", "None", "None", "52.12N", "021.39E", "185", "PL"],
  ["MODLIN", "EPMO", "None", "None", "52.27N", "020.39E", "104", "PL"],
  ["GDYNIA-BABIE DO", "EPOK", "None", "None", "54.35N", "018.31E", "44", "PL"],
  ["POZNAN/LAWICA", "EPPO", "None", "12330", "52.25N", "016.49E", "92", "PL"],
  ["PRUSZCZ GDANSKI", "EPPR", "None", "None", "54.15N", "018.40E", "7", "PL"],
  ["POWIDZ AIRPORT", "EPPW", "None", "None", "52.23N", "017.51E", "113", "PL"],
  ["RADOM AIRPORT", "EPRA", "None", "None", "51.23N", "021.13E", "178", "PL"],
  ["RZESZOW/JASIONKA", "EPRZ", "None", "12580", "50.06N", "022.03E", "202", "PL"],
  ["SZCZECIN/GOLENIO", "EPSC", "None", "12205", "53.35N", "014.54E", "3", "PL"],
  ["SLUPSK", "EPSK", "None", "None", "54.28N", "017.01E", "25", "PL"],
  ["SWIDWIN ARPT", "EPSN", "None", "None", "53.47N", "015.50E", "118", "PL"],
  ["SZYMANY", "EPSY", "None", "None", "53.28N", "020.56E", "141", "PL"],
  ["SPAA GLINNIK", "EPTM", "None", "None", "51.35N", "020.06E", "174", "PL"],
  ["WARSAW/OKECIE", "EPWA", "None", "12375", "52.10N", "020.58E", "107", "PL"],
  ["WROCLAW/STRACHOW", "EPWR", "None", "12424", "51.06N", "016.52E", "121", "PL"],
  ["ZIELONA GORA", "EPZG", "None", "12400", "52.08N", "015.48E", "59", "PL"],
  ["LEBA", "None", "None", "12120", "54.45N", "017.32E", "2", "PL"]]

/-- `STATIONS` (database/stations.py 6217-6316). -/
noncomputable def stations62 : List StationRow := rows! [
  ["LEGIONOWO", "None", "None", "12374", "52.24N", "020.58E", "94", "PL"],
  ["WROCLAW/MALY GAD", "None", "None", "12425", "51.08N", "016.59E", "116", "PL"],
  ["LINKOPING/MALMEN", "ESCF", "None", "02562", "58.23N", "015.31E", "117", "SE"],
  ["SODERHAMN (SWE-A", "ESNY", "None", "02376", "61.16N", "017.06E", "36", "SE"],
  ["UPPSALA (SWE-AFB", "ESCM", "None", "02458", "59.52N", "017.36E", "41", "SE"],
  ["LJUNGBYHED(SWE-A", "ESDA", "None", "02630", "56.04N", "013.13E", "52", "SE"],
  ["ANGELHOLM (SWE-A", "ESTA", "None", "02607", "56.17N", "012.50E", "47", "SE"],
  ["RONNEBY (SWE-AFB", "ESDF", "None", "02664", "56.16N", "015.16E", "74", "SE"],
  ["VAXJO/URASA (AFB", "ESFU", "None", "02640", "56.52N", "014.48E", "166", "SE"],
  ["GOTEBORG/LANDVET", "ESGG", "None", "02527", "57.40N", "012.18E", "169", "SE"],
  ["GOTEBORG/LANDVET", "None", "None", "02526", "57.40N", "012.18E", "169", "SE"],
  ["JONKOPING AIRPOR", "ESGJ", "None", "02550", "57.46N", "014.04E", "232", "SE"],
  ["LIDKOPING", "ESGL", "None", "None", "58.28N", "013.10E", "61", "SE"],
  ["GOTEBORG/SAVE (A", "ESGP", "None", "02512", "57.46N", "011.52E", "53", "SE"],
  ["SKOVDE AIRPORT", "ESGR", "None", "02535", "58.27N", "013.58E", "105", "SE"],
  ["TROLLHATTAN (PVT", "ESGT", "None", "None", "58.19N", "012.20E", "41", "SE"],
  ["SATENAS (SWE-AFB", "ESIB", "None", "02520", "58.25N", "012.41E", "74", "SE"],
  ["SKAVSTA/STOCKHO", "ESKN", "None", "None", "58.47N", "016.54E", "43", "SE"],
  ["KRISTIANSTAD/EVE", "ESMK", "None", "02651", "55.55N", "014.04E", "23", "SE"],
  ["KALMAR", "ESMQ", "None", "02672", "56.41N", "016.18E", "16", "SE"],
  ["MALMO/STURUP", "ESMS", "None", "02636", "55.32N", "013.22E", "106", "SE"],
  ["HALMSTAD (SWE-AF", "ESMT", "None", "02604", "56.40N", "012.49E", "30", "SE"],
  ["HAGSHULT (SWE-AF", "ESMV", "None", "02556", "57.17N", "014.07E", "172", "SE"],
  ["VAXJO/KRONOBERG", "ESMX", "None", "02641", "56.55N", "014.43E", "186", "SE"],
  ["SVEG", "ESND", "None", "None", "62.03N", "014.25E", "359", "SE"],
  ["GALLIVARE (PRIVA", "ESNG", "None", "02049", "67.08N", "020.49E", "310", "SE"],
  ["JOKKMOKK (SWE-AF", "ESNJ", "None", "02142", "66.37N", "019.38E", "264", "SE"],
  ["KRAMFORS (SWE-AF", "ESNK", "None", "02259", "63.02N", "017.46E", "19", "SE"],
  ["LYCKSELE", "ESNL", "None", "None", "64.33N", "018.43E", "214", "SE"],
  ["SUNDSVALL/HARNOS", "ESNN", "None", "02365", "62.31N", "017.26E", "10", "SE"],
  ["SUNDSVALL/HARNOS", "None", "None", "02366", "62.31N", "017.26E", "10", "SE"],
  ["ORNSKOLDSVIK ARP", "ESNO", "None", "02267", "63.23N", "018.58E", "103", "SE"],
  ["KIRUNA AIRPORT", "ESNQ", "None", "02044", "67.49N", "020.19E", "452", "SE"],
  ["SKELLEFTEA AIRPO", "ESNS", "None", "02293", "64.37N", "021.04E", "49", "SE"],
  ["UMEA AIRPORT", "ESNU", "None", "02286", "63.47N", "020.16E", "14", "SE"],
  ["VILHELMINA", "ESNV", "None", "None", "64.35N", "016.50E", "348", "SE"],
  ["ARVIDSJAUR", "ESNX", "None", "None", "65.35N", "019.17E", "379", "SE"],
  ["OREBRO (PRIVATE)", "ESOE", "None", "None", "59.13N", "015.03E", "57", "SE"],
  ["KARLSTAD NORTH", "ESOK", "None", "None", "59.27N", "013.20E", "107", "SE"],
  ["VASTERAS/HASSLO", "ESOW", "None", "02446", "59.34N", "016.37E", "31", "SE"],
  ["KALLAX/LULEA (AF", "ESPA", "None", "02185", "65.32N", "022.07E", "34", "SE"],
  ["KALLAX/LULEA (AF", "None", "None", "02186", "65.32N", "022.07E", "34", "SE"],
  ["OSTERSUND/FROSON", "ESNZ", "None", "02226", "63.10N", "014.30E", "370", "SE"],
  ["GUNNARN (SWE-AFB", "ESPD", "None", "02128", "65.01N", "017.40E", "281", "SE"],
  ["VIDSEL (SWE-AFB)", "ESPE", "None", "02154", "65.53N", "020.09E", "182", "SE"],
  ["VISBY AERO STATI", "ESQV", "None", "02591", "57.38N", "018.21E", "47", "SE"],
  ["STOCKHOLM/ARLAND", "ESSA", "None", "02460", "59.38N", "017.56E", "61", "SE"],
  ["STOCKHOLM/BROMMA", "ESSB", "None", "02464", "59.21N", "017.56E", "11", "SE"],
  ["BORLANGE (SWE-AF", "ESSD", "None", "02435", "60.25N", "015.30E", "161", "SE"],
  ["HULTSFRED (SWE-A", "ESSF", "None", "02565", "57.31N", "015.49E", "112", "SE"],
  ["GAVLE/SANDVIKEN", "ESSK", "None", "02443", "60.36N", "016.57E", "69", "SE"],
  ["LINKOPING/SAAB", "ESSL", "None", "None", "58.23N", "015.40E", "52", "SE"],
  ["NORRKOPING/KUNGS", "ESSP", "None", "02571", "58.34N", "016.15E", "8", "SE"],
  ["KARLSTADT AIRPOR", "ESSQ", "None", "02418", "59.22N", "013.28E", "55", "SE"],
  ["TORSBY", "ESST", "None", "None", "60.09N", "012.59E", "120", "SE"],
  ["VISBY AIRPORT", "ESSV", "None", "02590", "57.40N", "018.21E", "47", "SE"],
  ["LJUNGBYHED", "ESTL", "None", "None", "56.04N", "013.12E", "43", "SE"],
  ["STORUMAN", "ESUD", "None", "None", "64.58N", "017.42E", "279", "SE"],
  ["PAJALA", "ESUP", "None", "None", "67.15N", "023.04E", "165", "SE"],
  ["HEMAVAN", "ESUT", "None", "None", "65.48N", "015.05E", "463", "SE"],
  ["ANGELHOLM (SWE-A", "ESDB", "None", "None", "56.17N", "012.50E", "47", "SE"],
  ["BARKARBY (SWE-AF", "ESKB", "None", "None", "59.25N", "017.52E", "17", "SE"],
  ["ARVIKA", "ESKV", "None", "02404", "59.40N", "012.34E", "78", "SE"],
  ["SILJAN/MORA", "ESKM", "None", "None", "60.58N", "014.31E", "193", "SE"],
  ["SODERHAMN (SWE-A", "ESCL", "None", "None", "61.16N", "017.06E", "36", "SE"],
  ["OSTERSUND/FROSON", "ESPC", "None", "None", "63.10N", "014.30E", "370", "SE"],
  ["KAUNAS", "EYKA", "None", "None", "54.58N", "024.05E", "77", "LT"],
  ["PALANGA INTL", "EYPA", "None", "None", "55.58N", "021.05E", "10", "LT"],
  ["SIAULIAI INTL", "EYSA", "None", "None", "55.54N", "023.24E", "135", "LT"],
  ["VILNIUS INTL", "EYVI", "None", "26730", "54.38N", "025.17E", "197", "LT"],
  ["TIRANA", "LATI", "None", "13615", "41.25N", "019.43E", "90", "AL"],
  ["BURGAS", "LBBG", "None", "15655", "42.34N", "027.31E", "28", "BG"],
  ["GORNA ORECHOVIST", "LBGO", "None", "None", "43.09N", "025.43E", "86", "BG"],
  ["PLOVDIV", "LBPD", "None", "15625", "42.08N", "024.48E", "185", "BG"],
  ["GRAF IGNATIEVO", "LBPG", "None", "None", "42.17N", "024.43E", "58", "BG"],
  ["ROUSSE/RUSE", "LBRS", "None", "15535", "43.51N", "025.56E", "45", "BG"],
  ["SOFIA (OBSERVATO", "LBSF", "None", "15614", "42.39N", "023.23E", "595", "BG"],
  ["VARNA", "LBWN", "None", "15552", "43.13N", "027.49E", "43", "BG"],
  ["ERCAN", "LCEN", "None", "None", "35.08N", "033.30E", "91", "CY"],
  ["GECITKALE", "LCGK", "None", "None", "35.15N", "033.44E", "20", "CY"],
  ["LARNACA/LARNAX A", "LCLK", "None", "17609", "34.52N", "033.37E", "2", "CY"],
  ["NICOSIA/ATHALASS", "LCNC", "None", "17607", "35.08N", "033.23E", "161", "CY"],
  ["PAPHOS/BAF INTL", "LCPH", "None", "17600", "34.43N", "032.28E", "8", "CY"],
  ["AKROTIRI (RAF)", "LCRA", "None", "17601", "34.34N", "032.58E", "23", "CY"],
  ["ZAGREB/MAKSIMIR", "LDDD", "None", "14240", "45.49N", "016.02E", "123", "HR"],
  ["DUBROVNIK-CILIPI", "LDDU", "None", "13452", "42.34N", "018.16E", "165", "HR"],
  ["LOSINJ ISLAND", "LDLO", "None", "None", "44.34N", "014.24E", "46", "HR"],
  ["OSIJEK", "LDOS", "None", "13157", "45.28N", "018.49E", "89", "HR"],
  ["PULA", "LDPL", "None", "13209", "44.53N", "013.55E", "63", "HR"],
  ["RIJEKA/OMISALJ", "LDRI", "None", "13116", "45.13N", "014.34E", "85", "HR"],
  ["BOL AIRPORT", "LDSB", "None", "None", "43.17N", "016.41E", "542", "HR"],
  ["SPLIT/KASTEL STA", "LDSP", "None", "13333", "43.31N", "016.18E", "21", "HR"],
  ["SHIP C7M/MIKE", "LDWR", "None", "99018", "66.00N", "002.00E", "0", "HR"],
  ["ZAGREB/PLESO", "LDZA", "None", "13131", "45.43N", "016.04E", "107", "HR"],
  ["ZADAR/ZEMUNIK", "LDZD", "None", "13224", "44.06N", "015.22E", "84", "HR"],
  ["ALBACETE (CIV/MI", "LEAB", "None", "08280", "38.57N", "001.51W", "704", "ES"],
  ["ALICANTE/EL ALTE", "LEAL", "None", "08360", "38.16N", "000.33W", "31", "ES"],
  ["ALMERIA AIRPORT", "LEAM", "None", "08487", "36.51N", "002.22W", "21", "ES"],
  ["ASTURIAS/AVILES", "LEAS", "None", "08011", "43.32N", "006.01W", "134", "ES"],
  ["CORDOBA AIRPORT", "LEBA", "None", "08410", "37.51N", "004.49W", "92", "ES"]]

/-- `STATIONS` (database/stations.py 6317-6416). -/
noncomputable def stations63 : List StationRow := rows! [
  ["BILBAO/SONDICA", "LEBB", "None", "08025", "43.17N", "002.55W", "34", "ES"],
  ["BURGOS/VILLAFRIA", "LEBG", "None", "08075", "42.22N", "003.37W", "891", "ES"],
  ["BARCELONA AIRPOR", "LEBL", "None", "08181", "41.16N", "002.04E", "6", "ES"],
  ["BARDENAS REALES", "LEBR", "None", "08087", "42.12N", "001.26W", "295", "ES"],
  ["TALAVERA AB/BADA", "LEBZ", "None", "08330", "38.52N", "006.49W", "192", "ES"],
  ["CALAMOCHA", "LECH", "None", "08233", "40.52N", "001.18W", "899", "ES"],
  ["LA CORUNA/ALVEDR", "LECO", "None", "08002", "43.17N", "008.22W", "103", "ES"],
  ["MADRI-COLMENAR", "LECV", "None", "08219", "40.38N", "003.43W", "710", "ES"],
  ["LLEIDA/ALGUAIRE", "LEDA", "None", "None", "41.44N", "000.32E", "350", "ES"],
  ["ARMILLA (CIV/MIL", "LEGA", "None", "None", "37.07N", "003.37W", "686", "ES"],
  ["GERONA/COSTA BRA", "LEGE", "None", "08184", "41.53N", "002.46E", "129", "ES"],
  ["GRANADA AIRPORT", "LEGR", "None", "08419", "37.10N", "003.46W", "559", "ES"],
  ["MADRID/GETAFE (A", "LEGT", "None", "08224", "40.17N", "003.43W", "612", "ES"],
  ["HUESCA-PIRINEOS", "LEHC", "None", "None", "42.05N", "000.19W", "539", "ES"],
  ["HINOJOSA DEL DUQ", "LEHI", "None", "08335", "38.31N", "005.07W", "534", "ES"],
  ["IBIZA/ES CODOLA", "LEIB", "None", "08373", "38.52N", "001.22E", "12", "ES"],
  ["JEREZ (CIV/MIL)", "LEJR", "None", "08451", "36.45N", "006.04W", "30", "ES"],
  ["SAN JAVIER(MIL/C", "LELC", "None", "08433", "37.46N", "000.48W", "3", "ES"],
  ["SABADELL", "LELL", "None", "None", "41.31N", "002.06E", "250", "ES"],
  ["LEON/VIRGEN CAMI", "LELN", "None", "08055", "42.34N", "005.39W", "914", "ES"],
  ["LOGRONO/AGONCILL", "LELO", "None", "08084", "42.27N", "002.19W", "363", "ES"],
  ["MADRID/BARAJAS", "LEMD", "None", "08221", "40.29N", "003.34W", "582", "ES"],
  ["MALAGA (CIV/MIL)", "LEMG", "None", "08482", "36.40N", "004.30W", "7", "ES"],
  ["MAHON/MENORCA IS", "LEMH", "None", "08314", "39.52N", "004.13E", "82", "ES"],
  ["MORON (SP-USAFB)", "LEMO", "None", "08397", "37.10N", "005.37W", "88", "ES"],
  ["PALMA DE MALLORC", "LEPA", "None", "08306", "39.32N", "002.43E", "8", "ES"],
  ["PAMPLONA/NOAIN", "LEPP", "None", "08085", "42.46N", "001.39W", "459", "ES"],
  ["ALCANTARILLA(SP-", "LERI", "None", "08429", "37.57N", "001.13W", "75", "ES"],
  ["REUS (CIV/MIL)", "LERS", "None", "08175", "41.08N", "001.10E", "76", "ES"],
  ["ROTA NAVAL STATI", "LERT", "None", "08449", "36.38N", "006.20W", "26", "ES"],
  ["ROTA NAVAL STATI", "KQNR", "None", "None", "36.38N", "006.20W", "26", "ES"],
  ["SALAMANCA (CIV/M", "LESA", "None", "08202", "40.57N", "005.30W", "795", "ES"],
  ["SAN SEBASTIAN/FU", "LESO", "None", "08029", "43.21N", "001.48W", "8", "ES"],
  ["SANTIAGO/LABACOL", "LEST", "None", "08042", "42.53N", "008.25W", "367", "ES"],
  ["PIRINEUS/LA SEU", "LESU", "None", "None", "42.20N", "001.24E", "800", "ES"],
  ["SEVILLA/TABLADA", "LETA", "None", "08390", "37.22N", "006.00W", "14", "ES"],
  ["TORREJON (USAFB)", "LETO", "None", "08227", "40.28N", "003.28W", "608", "ES"],
  ["VALENCIA (CIV/MI", "LEVC", "None", "08284", "39.30N", "000.28W", "62", "ES"],
  ["VALLADOLID(MIL/C", "LEVD", "None", "08140", "41.43N", "004.50W", "854", "ES"],
  ["MADRID/CUATRO VI", "LEVS", "None", "08223", "40.22N", "003.46W", "687", "ES"],
  ["VITORIA", "LEVT", "None", "08080", "42.52N", "002.43W", "509", "ES"],
  ["VIGO/PEINADOR", "LEVX", "None", "08045", "42.13N", "008.37W", "256", "ES"],
  ["SANTANDER/PARAYA", "LEXJ", "None", "08021", "43.25N", "003.49W", "6", "ES"],
  ["ZARAGOZA (USAFB)", "LEZA", "None", "None", "41.40N", "001.03W", "263", "ES"],
  ["ZARAGOZA (MIL/CI", "LEZG", "None", "08160", "41.40N", "001.01W", "258", "ES"],
  ["SEVILLA (CIV/MIL", "LEZL", "None", "08391", "37.25N", "005.54W", "31", "ES"],
  ["LA CORUNA CITY", "None", "None", "08001", "43.22N", "008.25W", "67", "ES"],
  ["SANTANDER CITY", "None", "None", "08023", "43.28N", "003.49W", "79", "ES"],
  ["PALMA D MALLORCA", "None", "None", "08301", "39.33N", "002.37W", "6", "ES"],
  ["PALMA/SON BONET", "None", "None", "08302", "39.36N", "002.42W", "41", "ES"],
  ["MURCIA CITY", "None", "None", "08430", "37.59N", "001.07W", "54", "ES"],
  ["FUERTEVENTURA AR", "GCFV", "None", "60035", "28.26N", "013.52W", "23", "ES"],
  ["LA GOMERA ARPT", "GCGM", "None", "None", "28.02N", "017.13W", "219", "ES"],
  ["HIERRO AIRPORT", "GCHI", "None", "60001", "27.49N", "017.52W", "30", "ES"],
  ["LA PALMA AIRPORT", "GCLA", "None", "60005", "28.37N", "017.45W", "31", "ES"],
  ["LAS PALMAS/GANDO", "GCLP", "None", "60030", "27.55N", "015.22W", "25", "ES"],
  ["ARRECIFE/LANZARO", "GCRR", "None", "60040", "28.56N", "013.35W", "40", "ES"],
  ["TENERIFE SUR/REI", "GCTS", "None", "60025", "28.03N", "016.34W", "72", "ES"],
  ["TENERIFE/LOS ROD", "GCXO", "None", "60015", "28.29N", "016.21W", "632", "ES"],
  ["MELILLA", "GEML", "None", "60338", "35.16N", "002.57W", "55", "ES"],
  ["CALAIS/DUNKERQUE", "LFAC", "None", "None", "50.58N", "001.57E", "3", "FR"],
  ["BRAY", "LFAQ", "None", "None", "49.58N", "002.42E", "111", "FR"],
  ["LE TOUQUET/P. PL", "LFAT", "None", "07003", "50.31N", "001.37E", "14", "FR"],
  ["AGEN/LA GARENNE", "LFBA", "None", "07524", "44.10N", "000.36E", "60", "FR"],
  ["CAZAUX POND (FAF", "LFBC", "None", "07502", "44.31N", "001.07W", "33", "FR"],
  ["BORDEAUX/MERIGNA", "LFBD", "None", "07510", "44.49N", "000.42W", "61", "FR"],
  ["BERGERAC/ROUMANI", "LFBE", "None", "07530", "44.49N", "000.31E", "52", "FR"],
  ["TOULOUSE/FRANCAZ", "LFBF", "None", "07631", "43.31N", "001.22E", "166", "FR"],
  ["COGNAC/CHATEAUBE", "LFBG", "None", "07412", "45.40N", "000.19W", "31", "FR"],
  ["LA ROCHELLE/LALE", "LFBH", "None", "07315", "46.11N", "001.12W", "10", "FR"],
  ["POITIERS/BIARD(A", "LFBI", "None", "07335", "46.34N", "000.19E", "120", "FR"],
  ["MONTLUCON/GUERET", "LFBK", "None", "None", "46.13N", "002.22E", "415", "FR"],
  ["LIMOGES/BELLEGAR", "LFBL", "None", "07434", "45.52N", "001.10E", "402", "FR"],
  ["MONT-DE-MARSAN F", "LFBM", "None", "07607", "43.55N", "000.30W", "63", "FR"],
  ["NIORT/SOUCHE (AU", "LFBN", "None", "07330", "46.19N", "000.24W", "61", "FR"],
  ["TOULOUSE/BLAGNAC", "LFBO", "None", "07630", "43.37N", "001.22E", "153", "FR"],
  ["PONT-LONG-UZEIN/", "LFBP", "None", "07610", "43.22N", "000.25W", "185", "FR"],
  ["MURET/LHERM", "LFBR", "None", "None", "43.27N", "001.16E", "189", "FR"],
  ["BISCAROSSE/PAREN", "LFBS", "None", "07503", "44.22N", "001.08W", "39", "FR"],
  ["TARBES/OSSUN", "LFBT", "None", "07621", "43.10N", "000.00E", "363", "FR"],
  ["BRIE CHAMPNIERS", "LFBU", "None", "None", "45.43N", "000.13E", "133", "FR"],
  ["BRIVE/LA ROCHE(A", "LFBV", "None", "07438", "45.08N", "001.28E", "117", "FR"],
  ["PERIGUEUX/BASSIL", "LFBX", "None", "07428", "45.12N", "000.49E", "97", "FR"],
  ["DAX/SEYRESSE", "LFBY", "None", "07603", "43.40N", "001.04W", "32", "FR"],
  ["BIARRITZ/ANGLET", "LFBZ", "None", "07602", "43.28N", "001.31W", "71", "FR"],
  ["LALBENQUE/CAHORS", "LFCC", "None", "None", "44.21N", "001.28E", "278", "FR"],
  ["ST. GIRONS/ANTIC", "LFCG", "None", "07627", "43.00N", "001.06E", "412", "FR"],
  ["ALBI/LE SEQUESTR", "LFCI", "None", "07632", "43.55N", "002.07E", "178", "FR"],
  ["CASTRES-MAZAMET", "LFCK", "None", "None", "43.33N", "002.17E", "240", "FR"],
  ["RODEZ/MARCILLAC", "LFCR", "None", "07552", "44.23N", "002.28E", "580", "FR"],
  ["MONTAUBAN", "LFDB", "None", "None", "44.08N", "001.29E", "160", "FR"],
  ["AUCH/LAMOTHE (AU", "LFDH", "None", "07622", "43.40N", "000.36E", "128", "FR"],
  ["SUIPPES RANGE (M", "LFFS", "None", "None", "49.08N", "004.31E", "199", "FR"],
  ["COLMAR HOUSSEN", "LFGA", "None", "None", "48.06N", "007.21E", "191", "FR"],
  ["DOLE TAVAUX", "LFGJ", "None", "None", "47.03N", "005.26E", "196", "FR"],
  ["MEGEVE", "LFHM", "None", "None", "45.52N", "006.37E", "950", "FR"],
  ["LE PUY/LOUDES (A", "LFHP", "None", "07471", "45.04N", "003.46E", "833", "FR"],
  ["CASSAGNES-BEGONH", "LFIG", "None", "07555", "44.10N", "002.31E", "1020", "FR"],
  ["METZ-NANCY-LORRA", "LFJL", "None", "07093", "48.58N", "006.15E", "264", "FR"],
  ["MARCE", "LFJR", "None", "None", "47.34N", "000.18W", "60", "FR"]]

/-- `STATIONS` (database/stations.py 6417-6516). -/
noncomputable def stations64 : List StationRow := rows! [
  ["BASTIA/PORETTA", "LFKB", "None", "07790", "42.32N", "009.28E", "12", "FR"],
  ["CALVI/ST. CATHER", "LFKC", "None", "07754", "42.31N", "008.48E", "58", "FR"],
  ["FIGARI (AUT)", "LFKF", "None", "07780", "41.30N", "009.05E", "23", "FR"],
  ["AJACCIO/CAMPO OR", "LFKJ", "None", "07761", "41.55N", "008.48E", "9", "FR"],
  ["SOLENZARA (FAFB)", "LFKS", "None", "07765", "41.55N", "009.24E", "22", "FR"],
  ["AUXERRE (AUT)", "LFLA", "None", "07265", "47.47N", "003.32E", "212", "FR"],
  ["CHAMBERY/AIX BAI", "LFLB", "None", "07491", "45.38N", "005.52E", "239", "FR"],
  ["CLERMONT/AULNAT", "LFLC", "None", "07460", "45.46N", "003.10E", "330", "FR"],
  ["BOURGES (AUT)", "LFLD", "None", "07255", "47.04N", "002.22E", "166", "FR"],
  ["LYON/SATOLAS", "LFLL", "None", "07481", "45.43N", "005.04E", "240", "FR"],
  ["MACON/CHARNAY (A", "LFLM", "None", "07385", "46.17N", "004.47E", "217", "FR"],
  ["SAINT YAN", "LFLN", "None", "07379", "46.25N", "004.01E", "244", "FR"],
  ["ANNECY/MEYTHET", "LFLP", "None", "None", "45.55N", "006.05E", "463", "FR"],
  ["MONTELIMAR/ANCON", "LFLQ", "None", "07577", "44.34N", "004.43E", "74", "FR"],
  ["GRENOBLE/ST. GEO", "LFLS", "None", "07486", "45.22N", "005.19E", "386", "FR"],
  ["VALENCE-CHABEUIL", "LFLU", "None", "None", "44.55N", "004.59E", "160", "FR"],
  ["VICHY/CHARMEIL", "LFLV", "None", "07374", "46.10N", "003.23E", "251", "FR"],
  ["AURILLAC (AUT)", "LFLW", "None", "07549", "44.53N", "002.25E", "639", "FR"],
  ["CHATEAUROUX/DEOL", "LFLX", "None", "07354", "46.51N", "001.43E", "157", "FR"],
  ["LYON/BRON", "LFLY", "None", "07480", "45.43N", "004.57E", "201", "FR"],
  ["AIX LES MILLES F", "LFMA", "None", "07649", "43.30N", "005.22E", "111", "FR"],
  ["LE LUC/LE CANNET", "LFMC", "None", "07675", "43.22N", "006.22E", "78", "FR"],
  ["CANNES/MANDELIEU", "LFMD", "None", "07684", "43.32N", "006.57E", "9", "FR"],
  ["NIMES/COURBESSAC", "LFME", "None", "07645", "43.52N", "004.24E", "62", "FR"],
  ["ST ETIENNE/BOUTH", "LFMH", "None", "07475", "45.31N", "004.17E", "402", "FR"],
  ["ISTRES/LE TUBE F", "LFMI", "None", "07647", "43.31N", "004.55E", "24", "FR"],
  ["CARCASSONNE/SALV", "LFMK", "None", "07635", "43.13N", "002.19E", "130", "FR"],
  ["MARSEILLE/MARIGN", "LFML", "None", "07650", "43.27N", "005.13E", "36", "FR"],
  ["NICE/COTE D'AZUR", "LFMN", "None", "07690", "43.38N", "007.12E", "10", "FR"],
  ["ORANGE/CARITAT(F", "LFMO", "None", "07579", "44.07N", "004.52E", "55", "FR"],
  ["PERPIGNAN/RIVESA", "LFMP", "None", "07747", "42.43N", "002.52E", "48", "FR"],
  ["FREJORGUES/MONTP", "LFMT", "None", "07643", "43.34N", "003.58E", "6", "FR"],
  ["BEZIERS/VIAS", "LFMU", "None", "None", "43.19N", "003.21E", "17", "FR"],
  ["CAUMONT", "LFMV", "None", "None", "43.54N", "004.54E", "38", "FR"],
  ["ST-AUBAN-SUR-DUR", "LFMX", "None", "07588", "44.04N", "006.00E", "461", "FR"],
  ["SALON (FAFB)", "LFMY", "None", "07648", "43.36N", "005.05E", "60", "FR"],
  ["GAP/TALLARD", "LFNA", "None", "None", "44.34N", "006.04E", "733", "FR"],
  ["MENDE/BRENOUX", "LFNB", "None", "None", "44.30N", "003.31E", "1024", "FR"],
  ["LA MOLE", "LFNM", "None", "None", "43.12N", "006.28E", "18", "FR"],
  ["AVORD (FAFB)", "LFOA", "None", "07257", "47.02N", "002.38E", "179", "FR"],
  ["BEAUVAIS/TILLE(A", "LFOB", "None", "07055", "49.28N", "002.07E", "111", "FR"],
  ["CHATEAUDUN (FAFB", "LFOC", "None", "07140", "48.02N", "001.22E", "127", "FR"],
  ["EVREUX/FAUVILLE", "LFOE", "None", "07038", "49.01N", "001.13E", "146", "FR"],
  ["ALENCON/VALFRAMB", "LFOF", "None", "07139", "48.27N", "000.07E", "141", "FR"],
  ["LE HAVRE/OCTEVIL", "LFOH", "None", "07028", "49.31N", "000.04E", "103", "FR"],
  ["ABBEVILLE (AUT)", "LFOI", "None", "07005", "50.08N", "001.50E", "77", "FR"],
  ["ORLEANS/BRICY(FA", "LFOJ", "None", "07249", "47.58N", "001.45E", "125", "FR"],
  ["CHALONS/VATRY FA", "LFOK", "None", "None", "48.47N", "004.11E", "162", "FR"],
  ["ROUEN/BOOS (AUT)", "LFOP", "None", "07037", "49.22N", "001.10E", "157", "FR"],
  ["CHARTRES/CHAMPOL", "LFOR", "None", "07143", "48.28N", "001.31E", "156", "FR"],
  ["VITTEFLEUR/ST. V", "LFOS", "None", "07033", "49.49N", "000.39E", "83", "FR"],
  ["TOURS/ST SYMPHOR", "LFOT", "TUF", "07240", "47.26N", "000.43E", "108", "FR"],
  ["LAVAL/ENTRAMMES", "LFOV", "None", "None", "48.02N", "000.45W", "101", "FR"],
  ["ST. QUENTIN/ROUP", "LFOW", "None", "07061", "49.49N", "003.12E", "101", "FR"],
  ["PARIS/LE BOURGET", "LFPB", "None", "07150", "48.58N", "002.27E", "65", "FR"],
  ["CREIL (FAFB)", "LFPC", "None", "07057", "49.15N", "002.31E", "88", "FR"],
  ["CHARLES DE GAULL", "LFPG", "None", "07157", "49.01N", "002.31E", "109", "FR"],
  ["MELUN/VILLAROCHE", "LFPM", "None", "07153", "48.37N", "002.40E", "92", "FR"],
  ["TOUSSUS LE NOBLE", "LFPN", "None", "07146", "48.45N", "002.07E", "164", "FR"],
  ["PARIS/ORLY", "LFPO", "None", "07149", "48.43N", "002.23E", "96", "FR"],
  ["CORMEILLES VEXIN", "LFPT", "None", "None", "49.06N", "002.02E", "99", "FR"],
  ["VILLACOUBLAY/VEL", "LFPV", "None", "07147", "48.46N", "002.12E", "179", "FR"],
  ["PARIS MET CENTER", "LFPW", "None", "None", "48.49N", "002.19E", "75", "FR"],
  ["BRETIGNY-SUR-ORG", "LFPY", "None", "07148", "48.36N", "002.19E", "85", "FR"],
  ["REIMS/PRUNAY", "LFQA", "None", "07072", "49.12N", "004.09E", "95", "FR"],
  ["TROYES/BARBEREY", "LFQB", "None", "07168", "48.19N", "004.01E", "118", "FR"],
  ["ROUVRES (FR-ARMY", "LFQE", "None", "None", "49.13N", "005.40E", "234", "FR"],
  ["NEVERS/FOURCHAMB", "LFQG", "None", "07260", "47.00N", "003.06E", "181", "FR"],
  ["CHATILLON-SUR-SE", "LFQH", "None", "07276", "47.51N", "004.32E", "264", "FR"],
  ["CAMBRAI/EPINOY(F", "LFQI", "None", "07017", "50.13N", "003.08E", "77", "FR"],
  ["LILLE/LESQUIN", "LFQQ", "None", "07015", "50.34N", "003.06E", "52", "FR"],
  ["CHARLEVILLE/MEZI", "LFQV", "None", "07075", "49.46N", "004.37E", "150", "FR"],
  ["ANGERS/AVRILLE(A", "LFRA", "None", "07230", "47.30N", "000.34W", "58", "FR"],
  ["BREST/GUIPAVAS", "LFRB", "None", "07110", "48.27N", "004.25W", "103", "FR"],
  ["CHERBOURG/MAUPER", "LFRC", "None", "07024", "49.38N", "001.28W", "138", "FR"],
  ["DINARD/PLEURTUIT", "LFRD", "None", "07125", "48.35N", "002.04W", "59", "FR"],
  ["ST GATIEN", "LFRG", "None", "None", "49.22N", "000.09E", "146", "FR"],
  ["LORIENT/LANN BIH", "LFRH", "None", "07205", "47.46N", "003.27W", "44", "FR"],
  ["LA ROCHE/LES AJO", "LFRI", "None", "07306", "46.42N", "001.22W", "91", "FR"],
  ["LANDIVISIAU (NAV", "LFRJ", "None", "07106", "48.31N", "004.09W", "115", "FR"],
  ["CAEN/CARPIQUET(A", "LFRK", "None", "07027", "49.10N", "000.27W", "67", "FR"],
  ["LANVEOC/POULMIC(", "LFRL", "None", "07109", "48.16N", "004.25W", "82", "FR"],
  ["LE MANS/ARNAGE(A", "LFRM", "None", "07235", "47.57N", "000.12E", "52", "FR"],
  ["RENNES/ST. JACQU", "LFRN", "None", "07130", "48.04N", "001.43W", "37", "FR"],
  ["LANNION/SERVEL", "LFRO", "None", "None", "48.45N", "003.28W", "89", "FR"],
  ["QUIMPER/PLUGUFFA", "LFRQ", "None", "07201", "47.58N", "004.10W", "94", "FR"],
  ["NANTES/CHATEAU B", "LFRS", "None", "07222", "47.10N", "001.36W", "27", "FR"],
  ["SAINT-BRIEUC ARM", "LFRT", "None", "07120", "48.31N", "002.51W", "136", "FR"],
  ["MORLAIX/PLOUJEAN", "LFRU", "None", "None", "48.36N", "003.49W", "86", "FR"],
  ["VANNES/MEUCON", "LFRV", "None", "None", "47.43N", "002.43W", "133", "FR"],
  ["ST. NAZAIRE/MONT", "LFRZ", "None", "07217", "47.19N", "002.10W", "4", "FR"],
  ["BESANCON/THISE(A", "LFSA", "None", "07288", "47.15N", "005.58E", "309", "FR"],
  ["BALE/MULHOUSE", "LFSB", "None", "07299", "47.36N", "007.31E", "271", "FR"],
  ["COLMAR/MEYENHEIM", "LFSC", "None", "07197", "47.55N", "007.24E", "217", "FR"],
  ["DIJON/LONGVIC(FA", "LFSD", "None", "07280", "47.16N", "005.04E", "227", "FR"],
  ["METZ/FRESCATY(FA", "LFSF", "None", "07090", "49.04N", "006.07E", "191", "FR"],
  ["EPINAL/MIRECOURT", "LFSG", "None", "None", "48.20N", "006.04E", "330", "FR"],
  ["ST. DIZIER/ROBIN", "LFSI", "None", "07169", "48.37N", "004.54E", "140", "FR"],
  ["BRIVE/SOUILLAC", "LFSL", "None", "None", "45.02N", "001.29E", "310", "FR"],
  ["NANCY/ESSEY", "LFSN", "None", "07180", "48.40N", "006.13E", "217", "FR"]]

/-- `STATIONS` (database/stations.py 6517-6616). -/
noncomputable def stations65 : List StationRow := rows! [
  ["NANCY/OCHEY (FAF", "LFSO", "None", "07181", "48.34N", "005.58E", "350", "FR"],
  ["PONTARLIER", "LFSP", "None", "None", "46.53N", "006.19E", "817", "FR"],
  ["BELFORT/FONTAINE", "LFSQ", "None", "07295", "47.37N", "006.52E", "423", "FR"],
  ["REIMS/CHAMPAGNE", "LFSR", "None", "07070", "49.17N", "004.01E", "99", "FR"],
  ["STRASBOURG/ENTZH", "LFST", "None", "07190", "48.32N", "007.37E", "154", "FR"],
  ["LUXEUIL/ST. SAUV", "LFSX", "None", "07292", "47.46N", "006.20E", "273", "FR"],
  ["PIERREFEN (NAVY)", "LFTF", "None", "None", "43.15N", "006.07E", "81", "FR"],
  ["HYERES/LE PALYVE", "LFTH", "None", "07667", "43.06N", "006.09E", "4", "FR"],
  ["FREJUS/ST. RAPHA", "LFTU", "None", "07680", "43.25N", "006.45E", "6", "FR"],
  ["NIMES/GARONS (NA", "LFTW", "None", "07646", "43.45N", "004.25E", "96", "FR"],
  ["AMBERIEU (FAFB/A", "LFXA", "None", "07482", "45.58N", "005.19E", "257", "FR"],
  ["APT/ST. CHRISTOL", "LFXI", "None", "07657", "44.02N", "005.28E", "837", "FR"],
  ["NIERGNIES (FAFB)", "LFYG", "None", "None", "50.07N", "003.16E", "110", "FR"],
  ["BROYE-LES-PESMES", "LFYH", "None", "None", "47.20N", "005.31E", "208", "FR"],
  ["CAPTIEUX (MET/OB", "LFYJ", "None", "07517", "44.10N", "000.16W", "133", "FR"],
  ["LURE/MALBOUHANS", "LFYL", "None", "None", "47.42N", "006.32E", "317", "FR"],
  ["ROMORANTIN/PRUNI", "LFYR", "None", "07247", "47.19N", "001.40E", "86", "FR"],
  ["TRAPPES (AUT)", "None", "None", "07145", "48.46N", "002.01E", "168", "FR"],
  ["ANDRAVIDA (CIV/A", "LGAD", "None", "16682", "37.55N", "021.16E", "12", "GR"],
  ["ALEXANDROUPOLIS", "LGAL", "None", "16627", "40.51N", "025.57E", "3", "GR"],
  ["ATHENS/ELEF-VEN", "LGAV", "None", "None", "37.56N", "023.57E", "94", "GR"],
  ["NEA ANCHIALOS", "LGBL", "None", "16665", "39.13N", "022.48E", "26", "GR"],
  ["ELEFSIS (HEL-AFB", "LGEL", "None", "16718", "38.04N", "023.33E", "31", "GR"],
  ["CHIOS AIRPORT", "LGHI", "None", "16706", "38.19N", "026.07E", "4", "GR"],
  ["IRAKLION (CIV/AF", "LGIR", "None", "16754", "35.19N", "025.10E", "39", "GR"],
  ["KITHIRA ARPT", "LGKC", "None", "None", "36.17N", "023.01E", "319", "GR"],
  ["KEFALLINIA", "LGKF", "None", "16685", "38.07N", "020.30E", "18", "GR"],
  ["KALAMATA (HEL-AF", "LGKL", "None", "16726", "37.04N", "022.01E", "8", "GR"],
  ["KOS AIRPORT", "LGKO", "None", "16742", "36.48N", "027.05E", "125", "GR"],
  ["KARPATHOS", "LGKP", "None", "16765", "35.25N", "027.09E", "20", "GR"],
  ["IOANNIS KAPODIST", "LGKR", "None", "16641", "39.37N", "019.55E", "2", "GR"],
  ["KAVALA/CHRISOUPO", "LGKV", "None", "16624", "40.55N", "024.37E", "5", "GR"],
  ["KOZANI (CIV/ARMY", "LGKZ", "None", "16632", "40.17N", "021.50E", "628", "GR"],
  ["LIMNOS ISLAND AR", "LGLM", "None", "16650", "39.55N", "025.14E", "5", "GR"],
  ["LARISA AIRPORT", "LGLR", "None", "16648", "39.39N", "022.28E", "74", "GR"],
  ["MIKONOS ISLAND", "LGMK", "None", "16750", "37.26N", "025.21E", "123", "GR"],
  ["MITILINI", "LGMT", "None", "16667", "39.03N", "026.36E", "17", "GR"],
  ["NAXOS AIRPORT", "LGNX", "None", "None", "37.05N", "025.22E", "4", "GR"],
  ["PAROS", "LGPA", "None", "16766", "37.00N", "025.08E", "36", "GR"],
  ["PREVEZA/AKTION", "LGPZ", "None", "16643", "38.55N", "020.46E", "4", "GR"],
  ["RHODES/DIAGORAS", "LGRP", "None", "16749", "36.24N", "028.05E", "5", "GR"],
  ["ARAXOS (CIV/AFB)", "LGRX", "None", "16687", "38.10N", "021.25E", "15", "GR"],
  ["SOUDA/KHANIA (AF", "LGSA", "None", "16746", "35.32N", "024.08E", "135", "GR"],
  ["SKIATHOS ISLAND", "LGSK", "None", "16660", "39.11N", "023.30E", "15", "GR"],
  ["SAMOS AIRPORT", "LGSM", "None", "16723", "37.41N", "026.55E", "6", "GR"],
  ["SYROS", "LGSO", "None", "16774", "37.25N", "024.57E", "72", "GR"],
  ["SANTORINI ISLAND", "LGSR", "None", "16744", "36.24N", "025.29E", "40", "GR"],
  ["SITIA AIRPORT", "LGST", "None", "16757", "35.13N", "026.06E", "115", "GR"],
  ["SKIROS", "LGSY", "None", "16684", "38.58N", "024.29E", "15", "GR"],
  ["TANAGRA AIRPORT", "LGTG", "None", "16699", "38.20N", "023.34E", "148", "GR"],
  ["KASTELI AIRPORT", "LGTL", "None", "16760", "35.12N", "025.20E", "360", "GR"],
  ["THESSALONIKI/MIK", "LGTS", "None", "16622", "40.31N", "022.58E", "7", "GR"],
  ["ZAKINTHOS AIRPOR", "LGZA", "None", "None", "37.45N", "020.52E", "3", "GR"],
  ["AGRINION (HEL-AF", "LGAG", "None", "16672", "38.37N", "021.22E", "24", "GR"],
  ["ATHENS/HELLENKIO", "LGAT", "None", "16716", "37.53N", "023.43E", "21", "GR"],
  ["IKARIA", "LGIK", "None", "16779", "37.41N", "026.21E", "24", "GR"],
  ["IOANNINA", "LGIO", "None", "16642", "39.42N", "020.49E", "476", "GR"],
  ["KASTORIA AIRPORT", "LGKA", "None", "16614", "40.27N", "021.16E", "669", "GR"],
  ["KASTELLORIZO", "LGKJ", "None", "16767", "36.04N", "029.20E", "145", "GR"],
  ["KASOS", "LGKS", "None", "16770", "35.25N", "026.55E", "10", "GR"],
  ["LEROS", "LGLE", "None", "16768", "37.11N", "026.48E", "11", "GR"],
  ["PIRAEUS", "LGLX", "None", "16717", "37.59N", "023.34E", "2", "GR"],
  ["MARATHONAS", "LGMR", "None", "16680", "38.09N", "024.01E", "5", "GR"],
  ["ASTYPALAIA", "LGPL", "None", "16739", "36.35N", "026.23E", "47", "GR"],
  ["RHODES/MARITSA", "LGRD", "None", "None", "36.22N", "028.07E", "62", "GR"],
  ["SEDES (HEL-MIL)", "LGSD", "None", "None", "40.32N", "023.01E", "57", "GR"],
  ["TRIPOLIS (HEL-AF", "LGTP", "None", "16710", "37.31N", "022.23E", "652", "GR"],
  ["TATOI/DEKELIA (A", "LGTT", "None", "16715", "38.06N", "023.46E", "235", "GR"],
  ["TYMBAKI", "LGTY", "None", "16759", "35.04N", "024.46E", "7", "GR"],
  ["VOLOS (CIV/MIL)", "LGVO", "None", "None", "39.22N", "022.56E", "27", "GR"],
  ["BEKESCSABA GLIDE", "LHBC", "None", "None", "46.41N", "021.10E", "86", "HU"],
  ["BUDAPEST/FERIHEG", "LHBP", "None", "12839", "47.25N", "019.16E", "185", "HU"],
  ["DEBRECEN AIRPORT", "LHDC", "None", "12882", "47.28N", "021.37E", "112", "HU"],
  ["KECSKEMET", "LHKE", "None", "None", "46.55N", "019.45E", "115", "HU"],
  ["PAPA", "LHPA", "None", "None", "47.21N", "017.30E", "148", "HU"],
  ["PECS-POGANY", "LHPP", "None", "None", "45.59N", "018.14E", "305", "HU"],
  ["GYOR", "LHPR", "None", "None", "47.38N", "017.49E", "129", "HU"],
  ["BALATON", "LHSM", "None", "None", "46.41N", "017.10E", "125", "HU"],
  ["SZOLNOK", "LHSN", "None", "None", "47.07N", "020.14E", "98", "HU"],
  ["BUDAPEST/LORINC", "None", "None", "12843", "47.26N", "019.11E", "140", "HU"],
  ["SZEGED (AUT)", "LHUD", "None", "12982", "46.15N", "020.06E", "84", "HU"],
  ["TASZAR", "LHTA", "None", "None", "46.24N", "017.55E", "160", "HU"],
  ["AMENDOLA (IT-AFB", "LIBA", "None", "16261", "41.31N", "015.43E", "60", "IT"],
  ["CROTONE", "LIBC", "None", "16350", "39.00N", "017.04E", "161", "IT"],
  ["BARI/PALESE MACC", "LIBD", "None", "16270", "41.07N", "016.46E", "44", "IT"],
  ["SANT'ANGELO (MOU", "LIBE", "None", "16258", "41.43N", "015.57E", "844", "IT"],
  ["FOGGIA/GINO LISA", "LIBF", "None", "None", "41.25N", "015.31E", "80", "IT"],
  ["GROTTAGLIE(CIV/A", "LIBG", "None", "16324", "40.31N", "017.23E", "69", "IT"],
  ["MARINA DI GINOSA", "LIBH", "None", "16325", "40.25N", "016.52E", "12", "IT"],
  ["VIESTE", "LIBI", "None", "None", "41.55N", "016.03E", "50", "IT"],
  ["VIBO VALENTIA", "LIBJ", "None", "None", "38.40N", "016.06E", "520", "IT"],
  ["CARAFFA DI CATAN", "LIBK", "None", "None", "38.52N", "016.28E", "343", "IT"],
  ["PALASCIA", "LIBL", "None", "None", "40.06N", "018.31E", "89", "IT"],
  ["GROTTAMMARE", "LIBM", "None", "None", "42.58N", "013.52E", "1", "IT"],
  ["LECCE (IT-AFB)", "LIBN", "None", "16332", "40.13N", "018.08E", "61", "IT"],
  ["PESCARA", "LIBP", "None", "16230", "42.25N", "014.11E", "11", "IT"],
  ["SCURO MOUNTAIN", "LIBQ", "None", "16344", "39.19N", "016.23E", "1720", "IT"],
  ["BRINDISI/CASALE", "LIBR", "None", "16320", "40.39N", "017.57E", "10", "IT"],
  ["CAMPOBASSO", "LIBS", "None", "16252", "41.34N", "014.39E", "807", "IT"],
  ["TERMOLI", "LIBT", "None", "16232", "42.00N", "015.00E", "44", "IT"]]

/-- `STATIONS` (database/stations.py 6617-6716). -/
noncomputable def stations66 : List StationRow := rows! [
  ["LATRONICO", "LIBU", "None", "16316", "40.04N", "016.01E", "896", "IT"],
  ["GIOIA DEL COLLE", "LIBV", "None", "16312", "40.46N", "016.55E", "350", "IT"],
  ["BONIFATI (CAPE)", "LIBW", "None", "16337", "39.34N", "015.52E", "485", "IT"],
  ["MARTINA FRANCA(A", "LIBX", "None", "None", "40.42N", "017.19E", "447", "IT"],
  ["SANTA MARIA DI L", "LIBY", "None", "16360", "39.49N", "018.21E", "112", "IT"],
  ["POTENZA", "LIBZ", "None", "16300", "40.37N", "015.48E", "843", "IT"],
  ["LAMEZIA TERME", "LICA", "None", "16362", "38.53N", "016.15E", "15", "IT"],
  ["COMISO", "LICB", "None", "None", "37.00N", "014.37E", "220", "IT"],
  ["CATANIA/FONTANAR", "LICC", "None", "16460", "37.28N", "015.03E", "17", "IT"],
  ["LAMPEDUSA ISLAND", "LICD", "None", "16490", "35.30N", "012.37E", "20", "IT"],
  ["ENNA", "LICE", "None", "16450", "37.34N", "014.16E", "965", "IT"],
  ["MESSINA", "LICF", "None", "16420", "38.12N", "015.33E", "51", "IT"],
  ["PANTELLERIA(IT-A", "LICG", "None", "16470", "36.49N", "011.58E", "191", "IT"],
  ["CAPE SPARTIVENTO", "LICH", "None", "None", "37.55N", "016.04E", "17", "IT"],
  ["PALERMO/POINT RA", "LICJ", "None", "16405", "38.10N", "013.05E", "34", "IT"],
  ["GELA", "LICL", "None", "16453", "37.04N", "014.13E", "33", "IT"],
  ["CALOPEZZATI", "LICM", "None", "None", "39.32N", "016.48E", "179", "IT"],
  ["COZZO SPADARO", "LICO", "None", "16480", "36.40N", "015.07E", "51", "IT"],
  ["PALMERO/BOCCADIF", "LICP", "None", "16410", "38.06N", "013.18E", "117", "IT"],
  ["REGGIO CALABRIA", "LICR", "None", "16422", "38.04N", "015.39E", "21", "IT"],
  ["SCIACCA", "LICS", "None", "None", "37.31N", "013.03E", "125", "IT"],
  ["TRAPANI/BIRGI (A", "LICT", "None", "16429", "37.55N", "012.30E", "7", "IT"],
  ["USTICA ISLAND", "LICU", "None", "16400", "38.42N", "013.10E", "251", "IT"],
  ["PRIZZI", "LICX", "None", "16434", "37.43N", "013.25E", "1035", "IT"],
  ["SIGONELLA (NAS)", "LICZ", "None", "16459", "37.23N", "014.55E", "22", "IT"],
  ["ALGHERO", "LIEA", "None", "16520", "40.37N", "008.16E", "23", "IT"],
  ["CAPE BELLAVISTA", "LIEB", "None", "16550", "39.56N", "009.43E", "156", "IT"],
  ["CAPE CARBONARA", "LIEC", "None", "16564", "39.06N", "009.31E", "118", "IT"],
  ["DECIMOMANNU(IT-A", "LIED", "None", "16546", "39.21N", "008.58E", "28", "IT"],
  ["CAGLIARI/ELMAS(A", "LIEE", "None", "16560", "39.15N", "009.04E", "4", "IT"],
  ["CAPE FRASCA", "LIEF", "None", "16539", "39.44N", "008.28E", "92", "IT"],
  ["GUARDIAVECCHIA", "LIEG", "None", "16506", "41.13N", "009.24E", "170", "IT"],
  ["CAPE CACCIA", "LIEH", "None", "16522", "40.34N", "008.10E", "205", "IT"],
  ["CAPE S. LORENZO", "LIEL", "None", "16542", "39.30N", "009.37E", "22", "IT"],
  ["MACOMER", "LIEM", "None", "None", "40.16N", "008.46E", "559", "IT"],
  ["FONNI", "LIEN", "None", "16538", "40.07N", "009.15E", "1029", "IT"],
  ["OLBIA/COSTA SMER", "LIEO", "None", "16531", "40.53N", "009.31E", "13", "IT"],
  ["PERDASDEFOGU", "LIEP", "None", "16541", "39.40N", "009.25E", "645", "IT"],
  ["TORTOLI", "LIET", "None", "None", "39.55N", "009.41E", "8", "IT"],
  ["AERITALIA", "LIMA", "None", "None", "45.05N", "007.36E", "287", "IT"],
  ["MILANO/MALPENSA", "LIMC", "None", "16066", "45.37N", "008.43E", "211", "IT"],
  ["GRIGNA SETTENTRI", "LIMD", "None", "None", "45.57N", "009.22E", "2403", "IT"],
  ["BERGAMO/ORIO SER", "LIME", "None", "16076", "45.40N", "009.41E", "237", "IT"],
  ["TORINO/CASELLE", "LIMF", "None", "16059", "45.13N", "007.39E", "287", "IT"],
  ["ALBENGA", "LIMG", "None", "16122", "44.02N", "008.07E", "49", "IT"],
  ["PIAN ROSA (MTN T", "LIMH", "None", "16052", "45.56N", "007.42E", "3488", "IT"],
  ["GENOVA/SESTRI", "LIMJ", "None", "16120", "44.25N", "008.50E", "3", "IT"],
  ["TORINO/BRIC CROC", "LIMK", "None", "16061", "45.01N", "007.43E", "710", "IT"],
  ["MILANO/LINATE", "LIML", "None", "16080", "45.28N", "009.16E", "103", "IT"],
  ["CAMERI (IT-AFB)", "LIMN", "None", "16064", "45.31N", "008.40E", "169", "IT"],
  ["BISBINO MOUNTAIN", "LIMO", "None", "16072", "45.52N", "009.04E", "1322", "IT"],
  ["PARMA", "LIMP", "None", "None", "44.49N", "010.18E", "50", "IT"],
  ["GOVONE", "LIMQ", "None", "16116", "44.47N", "008.05E", "315", "IT"],
  ["PIACENZA (IT-AFB", "LIMS", "None", "16084", "44.55N", "009.43E", "138", "IT"],
  ["CISA PASS", "LIMT", "None", "16124", "44.28N", "009.55E", "1040", "IT"],
  ["CAPE MELE", "LIMU", "None", "16153", "43.57N", "008.10E", "221", "IT"],
  ["GIOVI PASS", "LIMV", "None", "16119", "44.33N", "008.55E", "475", "IT"],
  ["AOSTA ARPT", "LIMW", "None", "None", "45.44N", "007.22E", "546", "IT"],
  ["MALANOTTE MOUNTA", "LIMY", "None", "16115", "44.15N", "007.47E", "1742", "IT"],
  ["LEVALDIGI", "LIMZ", "None", "None", "44.32N", "007.37E", "380", "IT"],
  ["AVIANO (IT/US-AF", "LIPA", "None", "16036", "46.01N", "012.35E", "126", "IT"],
  ["BOLZANO(CIV/IT-A", "LIPB", "None", "16020", "46.28N", "011.19E", "241", "IT"],
  ["CERVIA (IT-AFB)", "LIPC", "None", "16148", "44.13N", "012.18E", "10", "IT"],
  ["UDINE/CAMPOFORMI", "LIPD", "None", "16044", "46.01N", "013.10E", "94", "IT"],
  ["BOLOGNA/BORGO (A", "LIPE", "None", "16140", "44.31N", "011.18E", "42", "IT"],
  ["FERRARA (AUT)", "LIPF", "None", "16138", "44.49N", "011.37E", "10", "IT"],
  ["TREVISO(CIV/IT-A", "LIPH", "None", "16099", "45.38N", "012.10E", "23", "IT"],
  ["RIVOLTO (IT-AFB)", "LIPI", "None", "16045", "45.58N", "013.03E", "53", "IT"],
  ["FORLI (CIV/IT-AF", "LIPK", "None", "16147", "44.12N", "012.04E", "32", "IT"],
  ["GHEDI (IT-AFB)", "LIPL", "None", "16088", "45.25N", "010.16E", "92", "IT"],
  ["VERONA/BOSCOMANT", "LIPN", "None", "None", "45.28N", "010.55E", "91", "IT"],
  ["BRESCIA/MONTICHI", "LIPO", "None", "None", "45.25N", "010.20E", "109", "IT"],
  ["DOVA ACC", "LIPP", "None", "None", "45.23N", "011.52E", "14", "IT"],
  ["RONCHI LEGIONARI", "LIPQ", "None", "16108", "45.49N", "013.28E", "12", "IT"],
  ["RIMINI (CIV/IT-A", "LIPR", "None", "16149", "44.01N", "012.37E", "13", "IT"],
  ["ISTRANA (IT-AFB)", "LIPS", "None", "16098", "45.40N", "012.05E", "41", "IT"],
  ["VICENZA(CIV/IT-A", "LIPT", "None", "16094", "45.34N", "011.31E", "53", "IT"],
  ["PADOVA (CIV/IT-A", "LIPU", "None", "16095", "45.23N", "011.50E", "14", "IT"],
  ["VENEZIA/SAN NICO", "LIPV", "None", "None", "45.25N", "012.22E", "4", "IT"],
  ["VILLAFRANCA(CV/M", "LIPX", "None", "16090", "45.23N", "010.52E", "68", "IT"],
  ["FALCONARA (IT-AF", "LIPY", "None", "16191", "43.37N", "013.22E", "10", "IT"],
  ["VENEZIA/TESSERA", "LIPZ", "None", "16105", "45.30N", "012.21E", "6", "IT"],
  ["AREZZO", "LIQB", "None", "16172", "43.28N", "011.50E", "249", "IT"],
  ["CAPRI ISLAND", "LIQC", "None", "16294", "40.33N", "014.12E", "269", "IT"],
  ["PORRETTA PASS", "LIQD", "None", "None", "44.01N", "010.55E", "932", "IT"],
  ["GRAN SASSO MTN R", "LIQI", "None", "None", "42.27N", "013.41E", "2138", "IT"],
  ["CIVITAVECCHIA", "LIQJ", "None", "16214", "42.01N", "011.49E", "4", "IT"],
  ["CAPE PALINURO", "LIQK", "None", "16310", "40.02N", "015.17E", "185", "IT"],
  ["RIETI", "LIQN", "None", "16221", "42.25N", "012.50E", "389", "IT"],
  ["MOUNT ARGENTARIO", "LIQO", "None", "16168", "42.22N", "011.10E", "632", "IT"],
  ["PALMARIA ISLAND", "LIQP", "None", "16129", "44.01N", "009.49E", "192", "IT"],
  ["RADICOFANI", "LIQR", "None", "16204", "42.53N", "011.46E", "918", "IT"],
  ["SIENA", "LIQS", "None", "None", "43.19N", "011.20E", "322", "IT"],
  ["CAPE CIRCEO", "LIQT", "None", "None", "41.13N", "013.03E", "3", "IT"],
  ["VOLTERRA", "LIQV", "None", "16164", "43.24N", "010.52E", "575", "IT"],
  ["SARZANA/LUNI", "LIQW", "None", "16125", "44.04N", "009.58E", "10", "IT"],
  ["PONZA ISLAND", "LIQZ", "None", "16280", "40.55N", "012.56E", "185", "IT"],
  ["CIAMPINO(IT-AFB/", "LIRA", "None", "16239", "41.48N", "012.35E", "101", "IT"],
  ["VIGNA DI VALLE(M", "LIRB", "None", "16224", "42.04N", "012.13E", "270", "IT"],
  ["PRATICA DI MARE(", "LIRE", "None", "16245", "41.38N", "012.25E", "12", "IT"]]

/-- `STATIONS` (database/stations.py 6717-6816). -/
noncomputable def stations67 : List StationRow := rows! [
  ["ROME/FIUMICINO", "LIRF", "None", "16242", "41.47N", "012.13E", "3", "IT"],
  ["GUIDONIA (IT-AFB", "LIRG", "None", "16234", "42.00N", "012.43E", "89", "IT"],
  ["FROSINONE (IT-AF", "LIRH", "None", "16244", "41.39N", "013.18E", "181", "IT"],
  ["PONTECAGNANO (AF", "LIRI", "None", "None", "40.37N", "014.55E", "40", "IT"],
  ["M. CALAMITA", "LIRJ", "None", "16197", "42.46N", "010.14E", "397", "IT"],
  ["TERMINILLO MOUNT", "LIRK", "None", "16219", "42.28N", "012.58E", "1875", "IT"],
  ["LATINA (IT-AFB)", "LIRL", "None", "16243", "41.32N", "012.54E", "26", "IT"],
  ["GRAZZANISE (IT-A", "LIRM", "None", "16253", "41.02N", "014.04E", "10", "IT"],
  ["NAPLES/CAPODICHI", "LIRN", "None", "16289", "40.53N", "014.18E", "72", "IT"],
  ["PISA (CIV/IT-AFB", "LIRP", "None", "16158", "43.40N", "010.22E", "2", "IT"],
  ["FIRENZE/PERETOLA", "LIRQ", "None", "16170", "43.47N", "011.11E", "38", "IT"],
  ["GROSSETO (IT-AFB", "LIRS", "None", "16206", "42.45N", "011.04E", "7", "IT"],
  ["TREVICO", "LIRT", "None", "16263", "41.02N", "015.13E", "1093", "IT"],
  ["ROME/URBE (IT-AF", "LIRU", "None", "16235", "41.57N", "012.30E", "24", "IT"],
  ["VITERBO (IT-MIL)", "LIRV", "None", "16216", "42.25N", "012.04E", "300", "IT"],
  ["MONTE CALAMITA", "LIRX", "None", "None", "42.44N", "010.23E", "297", "IT"],
  ["PERUGIA", "LIRZ", "None", "16181", "43.06N", "012.30E", "205", "IT"],
  ["CIMONE MOUNTAIN", "LIVC", "None", "16134", "44.12N", "010.41E", "2173", "IT"],
  ["DOBBIACO", "LIVD", "None", "16033", "46.43N", "012.13E", "1226", "IT"],
  ["RESIA PASS", "LIVE", "None", "None", "46.51N", "010.30E", "1800", "IT"],
  ["FRONTONE", "LIVF", "None", "16179", "43.31N", "012.43E", "574", "IT"],
  ["GRAPPA MOUNTAIN", "LIVG", "None", "None", "45.52N", "011.48E", "1775", "IT"],
  ["POINT MARINA/RAV", "LIVM", "None", "16146", "44.27N", "012.18E", "6", "IT"],
  ["TARVISIO", "LIVO", "None", "16040", "46.30N", "013.34E", "778", "IT"],
  ["PAGANELLA MOUNTA", "LIVP", "None", "16022", "46.09N", "011.02E", "2129", "IT"],
  ["ROLLE PASS", "LIVR", "None", "16021", "46.17N", "011.46E", "2006", "IT"],
  ["TRIESTE", "LIVT", "None", "16110", "45.41N", "013.45E", "20", "IT"],
  ["MOUNT VENDA", "LIVV", "None", "None", "45.19N", "011.40E", "575", "IT"],
  ["AVIANO (USAF)", "LIYW", "None", "16037", "46.01N", "012.37E", "126", "IT"],
  ["MILANO ACC/COM", "LIMM", "None", "None", "45.26N", "009.17E", "103", "IT"],
  ["S PIETRO CAPOFIU", "None", "None", "16144", "44.39N", "011.37E", "38", "IT"],
  ["CERKLJE", "LJCE", "None", "14122", "45.54N", "015.31E", "155", "SI"],
  ["LJUBLJANA/BRNIK", "LJLJ", "None", "14014", "46.13N", "014.28E", "385", "SI"],
  ["MARIBOR", "LJMB", "None", "14026", "46.28N", "015.40E", "265", "SI"],
  ["MURSKA SOBOTA", "LJMS", "None", "14031", "46.38N", "016.10E", "188", "SI"],
  ["NOVO MESTO", "LJNM", "None", "14121", "45.47N", "015.10E", "213", "SI"],
  ["PORTOROZ", "LJPZ", "None", "14105", "45.28N", "013.37E", "2", "SI"],
  ["LUUBLUANA", "None", "None", "14015", "46.04N", "014.31E", "316", "SI"],
  ["CASLAV", "LKCV", "None", "None", "49.56N", "015.23E", "242", "CZ"],
  ["HOLESOV", "LKHO", "GTW", "11774", "49.19N", "017.34E", "224", "CZ"],
  ["KBELY", "LKKB", "None", "None", "50.07N", "014.32E", "286", "CZ"],
  ["LIBEREC", "LKLB", "None", "None", "50.46N", "015.01E", "405", "CZ"],
  ["PLZEN LINE", "LKLN", "None", "None", "49.41N", "013.16E", "362", "CZ"],
  ["KUNOVICE", "LKKU", "UHE", "None", "49.03N", "017.27E", "177", "CZ"],
  ["KARLOVY VARY", "LKKV", "KLV", "11414", "50.12N", "012.55E", "604", "CZ"],
  ["OSTRAVA/MOSNOV", "LKMT", "OSR", "11782", "49.40N", "018.07E", "256", "CZ"],
  ["NAMEST", "LKNA", "None", "None", "49.10N", "016.07E", "472", "CZ"],
  ["PARDUBICE", "LKPD", "PED", "None", "50.01N", "015.44E", "226", "CZ"],
  ["PREROV", "LKPO", "PRV", "None", "49.25N", "017.24E", "206", "CZ"],
  ["PRAGUE/RUZYNE", "LKPR", "PRG", "11518", "50.06N", "014.16E", "365", "CZ"],
  ["BRNO/TURANY", "LKTB", "BRQ", "11723", "49.08N", "016.41E", "246", "CZ"],
  ["PRAGUE/LIBUS", "None", "None", "11520", "50.00N", "014.27E", "303", "CZ"],
  ["BRNO REBESOVICE", "None", "None", "11722", "49.05N", "016.37E", "195", "CZ"],
  ["KOSICE", "LKKZ", "None", "None", "48.42N", "021.16E", "232", "CZ"],
  ["PIESTANY", "LKPP", "None", "None", "48.37N", "017.50E", "161", "CZ"],
  ["SLIAC", "LKSL", "None", "None", "48.37N", "019.08E", "318", "CZ"],
  ["MNICHOVO HRADIST", "LKMH", "None", "None", "50.32N", "015.00E", "244", "CZ"],
  ["VODOCHODY", "LKVO", "None", "None", "50.13N", "014.24E", "280", "CZ"],
  ["BRATISLAVA IVANK", "LZIB", "BTS", "11816", "48.10N", "017.13E", "134", "SK"],
  ["LUCENEC AIRPORT", "LZLU", "None", "None", "48.20N", "019.44E", "200", "SK"],
  ["POPRAD/TATRY", "LZTT", "TAT", "11934", "49.04N", "020.15E", "707", "SK"],
  ["KAMENICA NAD CIR", "LZKC", "None", "11993", "48.56N", "021.59E", "177", "SK"],
  ["KOSICE BARCA", "LZKZ", "KSC", "11968", "48.40N", "021.14E", "232", "SK"],
  ["PIESTANY", "LZPP", "PZY", "11826", "48.37N", "017.50E", "161", "SK"],
  ["SLIAC", "LZSL", "SLD", "11903", "48.38N", "019.08E", "313", "SK"],
  ["POPRAD/GANOVCE", "None", "None", "11952", "49.02N", "020.19E", "701", "SK"],
  ["PRIEVIDZA", "LZPE", "None", "None", "48.46N", "018.35E", "260", "SK"],
  ["NITRA", "LZNI", "None", "None", "48.17N", "018.08E", "135", "SK"],
  ["ZILINA", "LZZI", "ILZ", "None", "49.14N", "018.37E", "311", "SK"],
  ["BEN-GURION(CIV/M", "LLBG", "None", "40180", "32.00N", "034.53E", "49", "IL"],
  ["BEER-SHEVA/TEYMA", "LLBS", "None", "40191", "31.17N", "034.43E", "200", "IL"],
  ["ELAT/J. HOZMAN(A", "LLET", "None", "40199", "29.33N", "034.57E", "13", "IL"],
  ["HAIFA (ISR-AFB)", "LLHA", "None", "40155", "32.47N", "035.01E", "8", "IL"],
  ["BEN YA AKOV", "LLIB", "None", "None", "32.59N", "035.34E", "282", "IL"],
  ["JERUSALEM/ATAROT", "LLJR", "None", "40290", "31.52N", "035.13E", "759", "IL"],
  ["OVDA (ISR-AFB/CI", "LLOV", "None", "40198", "29.56N", "034.56E", "432", "IL"],
  ["SDE DOV AIRPORT", "LLSD", "None", "None", "32.07N", "034.47E", "14", "IL"],
  ["LUQA/MALTA", "LMML", "None", "16597", "35.51N", "014.28E", "91", "MT"],
  ["MALTA ACC", "LMMM", "None", "None", "35.53N", "014.31E", "95", "MT"],
  ["KREMS-LANGENLOIS", "LOAG", "None", "None", "48.27N", "015.38E", "312", "AT"],
  ["WR.NEUSTADT EAST", "LOAN", "None", "None", "47.51N", "016.15E", "272", "AT"],
  ["VOESLAU-KOTTINGB", "LOAV", "None", "11181", "47.58N", "016.16E", "233", "AT"],
  ["PUNITZ/GUESSING", "LOGG", "None", "11195", "47.09N", "016.19E", "290", "AT"],
  ["HOHENEMS-DORNBIR", "LOIH", "None", "None", "47.23N", "009.42E", "418", "AT"],
  ["OBEROSTERREICH", "LOLF", "None", "None", "48.31N", "014.25E", "685", "AT"],
  ["GRAZ (MIL/CIV)", "LOWG", "None", "11240", "47.00N", "015.25E", "347", "AT"],
  ["INNSBRUCK AIRPOR", "LOWI", "None", "11120", "47.16N", "011.20E", "581", "AT"],
  ["KLAGENFURT(CIV/M", "LOWK", "None", "11231", "46.39N", "014.19E", "441", "AT"],
  ["LINZ (CIV/MIL)", "LOWL", "None", "11010", "48.13N", "014.11E", "313", "AT"],
  ["SALZBURG AIRPORT", "LOWS", "None", "11150", "47.47N", "013.01E", "450", "AT"],
  ["VIENNA/SCHWECHAT", "LOWW", "None", "11036", "48.07N", "016.34E", "190", "AT"],
  ["ZELL AM SEE", "LOWZ", "None", "None", "47.18N", "012.47E", "754", "AT"],
  ["AIGEN/ENNSTAL (M", "LOXA", "None", "11157", "47.31N", "014.07E", "649", "AT"],
  ["HORSCHING (AUS-A", "LOXL", "None", "11011", "48.13N", "014.10E", "313", "AT"],
  ["WR.NEUSTADT WEST", "LOXN", "None", "11182", "47.50N", "016.13E", "280", "AT"],
  ["SCHWAZ (HELIPORT", "LOXS", "None", "11122", "47.19N", "011.41E", "543", "AT"],
  ["LANGENLEBARN/TUL", "LOXT", "None", "11030", "48.19N", "016.07E", "176", "AT"],
  ["ZELTWEG (MIL)", "LOXZ", "None", "11165", "47.12N", "014.45E", "682", "AT"],
  ["WIEN/HOHE WARTE", "None", "None", "11035", "48.15N", "016.22E", "200", "AT"],
  ["ALVERCA", "LPAR", "None", "08537", "38.53N", "009.02W", "3", "PT"]]

/-- `STATIONS` (database/stations.py 6817-6916). -/
noncomputable def stations68 : List StationRow := rows! [
  ["SANTA MARIA ISLA", "LPAZ", "None", "08515", "36.58N", "025.10W", "100", "PT"],
  ["BRAGANCA", "LPBG", "None", "08575", "41.51N", "006.42W", "692", "PT"],
  ["BEJA (POR/GER-AF", "LPBJ", "None", "08562", "38.05N", "007.56W", "247", "PT"],
  ["CORVO IS AZORES", "LPCR", "None", "None", "39.40N", "031.07W", "26", "PT"],
  ["CASCAIS", "LPCS", "None", "None", "38.44N", "009.21W", "99", "PT"],
  ["FLORES ISLAND", "LPFL", "None", "08501", "39.27N", "031.07W", "29", "PT"],
  ["FARO", "LPFR", "None", "08554", "37.01N", "007.58W", "4", "PT"],
  ["GRACIOSA IS AZOR", "LPGR", "None", "None", "39.06N", "028.02W", "26", "PT"],
  ["HORTA/FAIAL ISLA", "LPHR", "None", "08505", "38.31N", "028.43W", "41", "PT"],
  ["LAJES AB", "LPLA", "None", "08509", "38.46N", "027.06W", "55", "PT"],
  ["FUNCHAL/MADEIRA", "LPMA", "None", "None", "32.42N", "016.46W", "55", "PT"],
  ["MONTE REAL(POR-A", "LPMR", "None", "08540", "39.49N", "008.52W", "54", "PT"],
  ["MONTIJO (POR-AFB", "LPMT", "None", "08534", "38.42N", "009.03W", "11", "PT"],
  ["OTA (POR-AFB)", "LPOT", "None", "08539", "39.07N", "008.58W", "49", "PT"],
  ["OVAR MIL", "LPOV", "None", "None", "40.55N", "008.39W", "17", "PT"],
  ["PONTA DELGADA/NO", "LPPD", "None", "08512", "37.43N", "025.41W", "72", "PT"],
  ["RPICO IS AZORES", "LPPI", "None", "None", "38.33N", "028.26W", "33", "PT"],
  ["PORTO/PEDRAS RUB", "LPPR", "None", "08545", "41.13N", "008.40W", "73", "PT"],
  ["PORTO SANTO ISLA", "LPPS", "None", "08524", "33.04N", "016.21W", "82", "PT"],
  ["LISBON/PORTELA", "LPPT", "None", "08536", "38.46N", "009.07W", "123", "PT"],
  ["SINTRA/GRANJA (A", "LPST", "None", "08532", "38.49N", "009.19W", "130", "PT"],
  ["TANCOS (POR-AFB)", "LPTN", "None", "08552", "39.28N", "008.25W", "80", "PT"],
  ["VILA REAL", "LPVR", "None", "08567", "41.16N", "007.43W", "562", "PT"],
  ["HORTA", "None", "None", "08506", "38.31N", "028.38W", "62", "PT"],
  ["LAJES/SANTA RITA", "None", "None", "08508", "38.45N", "027.05W", "55", "PT"],
  ["FUNCHAL", "None", "None", "08522", "32.38N", "016.54W", "56", "PT"],
  ["LISBON/GAGO C", "None", "None", "08579", "38.46N", "009.08W", "105", "PT"],
  ["FUNCHAL/MADEIRA", "LPFU", "None", "08521", "32.40N", "016.46W", "55", "PT"],
  ["BANJA LUKA", "LQBK", "None", "None", "44.56N", "017.18E", "122", "CS"],
  ["SARAJEVO/BUTMIR", "LQSA", "None", "13353", "43.49N", "018.19E", "511", "CS"],
  ["TUZLA", "LQTZ", "None", "None", "44.28N", "018.44E", "306", "CS"],
  ["BELGRADE/SURCIN", "LYBE", "None", "13272", "44.49N", "020.17E", "99", "CS"],
  ["BATAJNICA", "LYBT", "None", "None", "44.56N", "020.15E", "80", "CS"],
  ["KRALJEVO", "LYKV", "None", "None", "43.49N", "020.35E", "209", "CS"],
  ["MOSTAR", "LYMO", "None", "13348", "43.21N", "017.48E", "108", "CS"],
  ["NIS", "LYNI", "None", "13388", "43.19N", "021.53E", "202", "CS"],
  ["PODGORICA(TITOGR", "LYPG", "None", "None", "42.22N", "019.15E", "43", "CS"],
  ["UZICE-PONIKVE", "LYUZ", "None", "None", "43.54N", "019.42E", "904", "CS"],
  ["PRISHTINA", "BKPR", "None", "13481", "42.35N", "021.02E", "576", "CS"],
  ["TITOGRAD/GOLUBOV", "LYTI", "None", "13462", "42.22N", "019.15E", "33", "CS"],
  ["TIVAT", "LYTV", "None", "13457", "42.23N", "018.43E", "5", "CS"],
  ["VRSAC", "LYVR", "None", "13183", "45.08N", "021.19E", "85", "CS"],
  ["OHRID", "LYOH", "None", "None", "41.07N", "020.48E", "761", "CS"],
  ["BEOGRAD KOSUTNJA", "None", "None", "13275", "44.47N", "020.32E", "243", "CS"],
  ["PRISHTINA", "LYPR", "None", "None", "42.35N", "021.02E", "546", "CS"],
  ["MOSTAR AIRPORT", "LQMO", "None", "None", "43.17N", "017.50E", "48", "BA"],
  ["ARAD", "LRAR", "None", "15200", "46.11N", "021.16E", "118", "RO"],
  ["BACAU", "LRBC", "None", "15150", "46.31N", "026.55E", "185", "RO"],
  ["BAIA MARE", "LRBM", "None", "15014", "47.40N", "023.28E", "185", "RO"],
  ["BUCHAREST/BANEAS", "LRBS", "None", "15420", "44.30N", "026.05E", "91", "RO"],
  ["KOGALNICEANU", "LRCK", "None", "15481", "44.22N", "028.29E", "108", "RO"],
  ["CLUJ-NAPOCA/SOME", "LRCL", "None", "15120", "46.47N", "023.41E", "413", "RO"],
  ["CARANSEBES", "LRCS", "None", "15292", "45.25N", "022.15E", "242", "RO"],
  ["CAMPIA TURZII", "LRCT", "None", "None", "46.30N", "023.53E", "331", "RO"],
  ["CRAIOVA", "LRCV", "None", "15450", "44.19N", "023.52E", "191", "RO"],
  ["IASI", "LRIA", "None", "15090", "47.10N", "027.37E", "104", "RO"],
  ["ORADEA", "LROD", "None", "15080", "47.02N", "021.55E", "140", "RO"],
  ["BUCHAREST/OTOPEN", "LROP", "None", "15421", "44.34N", "026.06E", "95", "RO"],
  ["SIBIU/TURNISOR", "LRSB", "None", "15260", "45.47N", "024.05E", "444", "RO"],
  ["SATU MARE", "LRSM", "None", "15010", "47.42N", "022.53E", "124", "RO"],
  ["SUCEAVA/SALCEA", "LRSV", "None", "15023", "47.41N", "026.21E", "351", "RO"],
  ["TULCEA", "LRTC", "None", "15335", "45.04N", "028.43E", "6", "RO"],
  ["TIGU MURES/VIDRA", "LRTM", "None", "15145", "46.28N", "024.25E", "309", "RO"],
  ["TIMISOARA/GIARMA", "LRTR", "None", "15247", "45.49N", "021.20E", "88", "RO"],
  ["AVRAMENI", "None", "None", "15001", "48.01N", "026.57E", "240", "RO"],
  ["CONSTANTA", "None", "None", "15480", "44.11N", "028.40E", "17", "RO"],
  ["LES EPLATURES", "LSGC", "None", "None", "47.05N", "006.48E", "1027", "CH"],
  ["GENEVA/COINTRIN", "LSGG", "None", "06700", "46.15N", "006.07E", "416", "CH"],
  ["LAUSANNE/BLECHER", "LSGL", "None", "06710", "46.32N", "006.37E", "615", "CH"],
  ["NEUCHATEL (AUT)", "LSGN", "None", "06604", "46.57N", "006.52E", "487", "CH"],
  ["SION (MIL/CIV/AU", "LSGS", "None", "06720", "46.13N", "007.19E", "481", "CH"],
  ["ALPNACH", "LSMA", "None", "None", "46.57N", "008.17E", "444", "CH"],
  ["DUBENDORF", "LSMD", "None", "None", "47.24N", "008.39E", "448", "CH"],
  ["EMMEN", "LSME", "None", "None", "47.06N", "008.18E", "427", "CH"],
  ["MEIRINGEN", "LSMM", "None", "None", "46.45N", "008.07E", "577", "CH"],
  ["PAYERNE (MIL/AUT", "LSMP", "None", "06610", "46.49N", "006.55E", "491", "CH"],
  ["SION (MIL)", "LSMS", "None", "None", "46.13N", "007.19E", "481", "CH"],
  ["LUGANO (PVT/AUT)", "LSZA", "None", "06770", "46.00N", "008.55E", "276", "CH"],
  ["BERN/BELP", "LSZB", "None", "None", "46.55N", "007.30E", "505", "CH"],
  ["BUOCHS", "LSZC", "None", "None", "46.58N", "008.23E", "450", "CH"],
  ["GRENCHEN", "LSZG", "None", "06632", "47.10N", "007.25E", "430", "CH"],
  ["ZURICH-KLOTEN (A", "LSZH", "None", "06670", "47.29N", "008.32E", "432", "CH"],
  ["LOCARNO", "LSZL", "None", "None", "46.10N", "008.53E", "600", "CH"],
  ["LOCARNO/ASCONA", "LSZD", "None", "None", "46.09N", "008.47E", "600", "CH"],
  ["RHEINECK/ALTENRH", "LSZR", "None", "06690", "47.29N", "009.34E", "398", "CH"],
  ["SAMEDAN", "LSZS", "None", "06792", "46.32N", "009.53E", "1706", "CH"],
  ["ANKARA/GUVERCIN", "LTAB", "None", "None", "39.55N", "032.45E", "819", "TR"],
  ["ANKARA/ESENBOGA", "LTAC", "None", "17128", "40.07N", "032.58E", "949", "TR"],
  ["ANKARA/ETIMESGUT", "LTAD", "None", "17129", "39.57N", "032.40E", "806", "TR"],
  ["MURTED (TUR-AFB)", "LTAE", "None", "17120", "40.04N", "032.34E", "843", "TR"],
  ["ADANA/SAKIRPASA", "LTAF", "None", "17352", "36.58N", "035.17E", "20", "TR"],
  ["ADANA/INCIRLIK A", "LTAG", "None", "17350", "37.00N", "035.25E", "66", "TR"],
  ["AFYON (MIL)", "LTAH", "None", "17190", "38.45N", "030.31E", "1034", "TR"],
  ["ANTALYA (CIV/MIL", "LTAI", "None", "17300", "36.54N", "030.48E", "54", "TR"],
  ["GAZIANTEP", "LTAJ", "None", "17260", "36.57N", "037.29E", "855", "TR"],
  ["ISKENDERUN", "LTAK", "None", "17370", "36.34N", "036.10E", "3", "TR"],
  ["KASTAMONU", "LTAL", "None", "17074", "41.19N", "033.48E", "1066", "TR"],
  ["KAYSERI (CITY)", "LTAM", "None", "None", "38.43N", "035.30E", "1043", "TR"],
  ["KONYA (TUR-AFB)", "LTAN", "None", "17244", "37.58N", "032.32E", "1006", "TR"],
  ["MERZIFON (TUR-AF", "LTAP", "None", "17082", "40.50N", "035.31E", "535", "TR"]]

/-- `STATIONS` (database/stations.py 6917-7016). -/
noncomputable def stations69 : List StationRow := rows! [
  ["SAMSUN AIRPORT", "LTAQ", "None", "17029", "41.16N", "036.17E", "168", "TR"],
  ["SIVAS (CIV/MIL)", "LTAR", "None", "17090", "39.48N", "036.54E", "1271", "TR"],
  ["ZONGULDAK", "LTAS", "None", "17022", "41.31N", "032.05E", "136", "TR"],
  ["MALATYA/ERHAC (A", "LTAT", "None", "17200", "38.25N", "038.04E", "849", "TR"],
  ["KAYSERI/ERKILET", "LTAU", "None", "17195", "38.46N", "035.28E", "1054", "TR"],
  ["SIVRIHISAR", "LTAV", "None", "None", "39.27N", "031.21E", "96", "TR"],
  ["TOKAT", "LTAW", "None", "17086", "40.17N", "036.22E", "608", "TR"],
  ["CARDAK", "LTAY", "None", "None", "37.46N", "029.41E", "849", "TR"],
  ["NEVSEHIR", "LTAZ", "None", "None", "38.46N", "034.33E", "945", "TR"],
  ["ISTANBUL/ATATURK", "LTBA", "None", "17060", "40.58N", "028.49E", "37", "TR"],
  ["AYDIN", "LTBD", "None", "17234", "37.51N", "027.51E", "57", "TR"],
  ["BURSA", "LTBE", "None", "17116", "40.10N", "029.04E", "100", "TR"],
  ["BALIKESIR (TUR-A", "LTBF", "None", "17150", "39.37N", "027.55E", "102", "TR"],
  ["BANDIRMA (CIV/AF", "LTBG", "None", "17115", "40.19N", "027.58E", "49", "TR"],
  ["CANAKKALE", "LTBH", "None", "17112", "40.08N", "026.25E", "3", "TR"],
  ["ESKISEHIR (TUR-A", "LTBI", "None", "17124", "39.46N", "030.34E", "785", "TR"],
  ["IZMIR/ADNAN MEND", "LTBJ", "None", "17219", "38.17N", "027.09E", "120", "TR"],
  ["IZMIR/CIGLI(CV/A", "LTBL", "None", "17218", "38.30N", "027.01E", "5", "TR"],
  ["ISPARTA", "LTBM", "None", "17240", "37.45N", "030.33E", "997", "TR"],
  ["KUTAHYA (TUR-AFB", "LTBN", "None", "None", "39.25N", "030.01E", "921", "TR"],
  ["USAK", "LTBO", "None", "17188", "38.40N", "029.28E", "919", "TR"],
  ["TOPEL (TUR-AFB)", "LTBQ", "None", "None", "40.43N", "030.04E", "50", "TR"],
  ["YENISEHIR AB", "LTBR", "None", "None", "40.15N", "029.34E", "232", "TR"],
  ["DALAMAN (COMMUNE", "LTBS", "None", "17295", "36.42N", "028.46E", "2", "TR"],
  ["AKHISAR (TUR-AFB", "LTBT", "None", "17184", "38.55N", "027.51E", "93", "TR"],
  ["CORLU", "LTBU", "None", "None", "41.07N", "027.55E", "173", "TR"],
  ["ANADOLU", "LTBY", "None", "None", "39.49N", "030.31E", "789", "TR"],
  ["MARISA", "LTBZ", "None", "None", "38.38N", "027.21E", "73", "TR"],
  ["ELAZIG (CIV/MIL)", "LTCA", "None", "17202", "38.36N", "039.16E", "882", "TR"],
  ["AGRI", "LTCB", "None", "17099", "39.43N", "043.02E", "1632", "TR"],
  ["DIYARBAKIR(CIV/A", "LTCC", "None", "17280", "37.52N", "040.12E", "677", "TR"],
  ["ERZINCAN", "LTCD", "None", "17092", "39.43N", "039.30E", "1215", "TR"],
  ["ERZURUM (CIV/MIL", "LTCE", "None", "17096", "39.57N", "041.10E", "1758", "TR"],
  ["KARS", "LTCF", "None", "17098", "40.34N", "043.07E", "1795", "TR"],
  ["TRABZON", "LTCG", "None", "17038", "41.00N", "039.48E", "30", "TR"],
  ["URFA/SANILURFA", "LTCH", "None", "17270", "37.07N", "038.46E", "547", "TR"],
  ["VAN", "LTCI", "None", "17170", "38.27N", "043.19E", "1661", "TR"],
  ["BATMAN (TUR-AFB)", "LTCJ", "None", "17282", "37.56N", "041.07E", "540", "TR"],
  ["MUS (TUR-AFB)", "LTCK", "None", "None", "38.45N", "041.40E", "1266", "TR"],
  ["SIIRT AIRPORT", "LTCL", "None", "None", "37.59N", "041.50E", "610", "TR"],
  ["SINOP AIRPORT", "LTCM", "None", "None", "42.01N", "035.04E", "8", "TR"],
  ["KAHRAMANMARAS", "LTCN", "None", "None", "37.32N", "036.57E", "526", "TR"],
  ["AGRI AIRPORT", "LTCO", "None", "None", "39.39N", "043.02E", "1665", "TR"],
  ["ADIYAMAN ARPT", "LTCP", "None", "None", "37.44N", "038.28E", "676", "TR"],
  ["MARDIN AIRPORT", "LTCR", "None", "None", "37.13N", "040.38E", "527", "TR"],
  ["SANLIURFA GAP", "LTCS", "None", "None", "37.27N", "038.54E", "825", "TR"],
  ["IGDIR", "LTCT", "None", "None", "39.59N", "043.52E", "946", "TR"],
  ["BINGOL", "LTCU", "None", "None", "38.52N", "040.35E", "1061", "TR"],
  ["SIRNAK", "LTCV", "None", "None", "37.22N", "042.04E", "621", "TR"],
  ["YUKSEKOVA", "LTCW", "None", "None", "37.33N", "044.14E", "1856", "TR"],
  ["HATAY AIRPORT", "LTDA", "None", "None", "36.22N", "036.17E", "82", "TR"],
  ["SULEYMAN DEMIREL", "LTFC", "ISE", "None", "37.52N", "030.23E", "864", "TR"],
  ["BALIKESIR KORFEZ", "LTFD", "None", "None", "39.33N", "027.01E", "16", "TR"],
  ["BODRUM MILAS", "LTFE", "None", "17290", "37.15N", "027.40E", "6", "TR"],
  ["GAZIPASA", "LTFG", "None", "None", "36.18N", "032.18E", "95", "TR"],
  ["CARSAMBA", "LTFH", "None", "None", "41.16N", "036.33E", "5", "TR"],
  ["SABIHA GOKCEN", "LTFJ", "None", "None", "40.54N", "029.18E", "98", "TR"],
  ["GOKCEADA", "LTFK", "None", "None", "40.12N", "025.53E", "21", "TR"],
  ["SAMSUN CITY", "None", "None", "17030", "41.17N", "036.20E", "4", "TR"],
  ["ISTANBUL/GOZTEPE", "None", "None", "17062", "40.58N", "029.05E", "33", "TR"],
  ["GOLCUK/DUMLUPINA", "None", "None", "17067", "40.43N", "029.49E", "18", "TR"],
  ["CENGIZTOPEL", "None", "None", "17068", "40.44N", "030.05E", "70", "TR"],
  ["ANKARA/CENTRAL", "None", "None", "17130", "39.57N", "032.53E", "894", "TR"],
  ["IZMIR", "None", "None", "17220", "38.26N", "027.10E", "25", "TR"],
  ["ADANA", "None", "None", "17351", "37.03N", "035.21E", "28", "TR"],
  ["CHISINAU INTL", "LUKK", "None", "None", "46.56N", "028.56E", "122", "MD"],
  ["CHISINAU", "UKII", "None", "33815", "47.01N", "028.52E", "180", "MD"],
  ["BALTI INTL ARPT", "LUBL", "None", "None", "47.50N", "027.47E", "232", "MD"],
  ["MARCULESTI", "LUBM", "None", "None", "47.52N", "028.13E", "95", "MD"],
  ["CAHUL INTL", "LUCH", "None", "None", "45.51N", "028.16E", "199", "MD"],
  ["SKOPJE/PETROVAC", "LWSK", "None", "13586", "41.58N", "021.38E", "239", "MK"],
  ["OHRID", "LWOH", "None", "13578", "41.11N", "020.45E", "761", "MK"],
  ["GIBRALTAR (CIV/M", "LXGB", "None", "08495", "36.08N", "005.20W", "5", "GI"],
  ["BOUGOUNI", "GABG", "None", "61296", "11.25N", "007.30W", "351", "ML"],
  ["BAMAKO/SENOU (MI", "GABS", "None", "61291", "12.31N", "007.57W", "381", "ML"],
  ["SHIP C7L/ROMEO", "GACA", "None", "99023", "47.00N", "017.00W", "0", "ML"],
  ["GAO (CIV/MIL)", "GAGO", "None", "61226", "16.16N", "000.03W", "260", "ML"],
  ["HOMBORI", "GAHB", "None", "61240", "15.19N", "001.40W", "288", "ML"],
  ["KENIEBA", "GAKA", "None", "61285", "12.50N", "011.13W", "132", "ML"],
  ["KIDAL", "GAKL", "None", "61214", "18.25N", "001.21E", "459", "ML"],
  ["KOUTIALA", "GAKO", "None", "61293", "12.22N", "005.28W", "367", "ML"],
  ["KITA", "GAKT", "None", "61270", "13.04N", "009.28W", "334", "ML"],
  ["KAYES", "GAKY", "None", "61257", "14.25N", "011.25W", "47", "ML"],
  ["MOPTI/BARBE (MIL", "GAMB", "None", "61265", "14.31N", "004.05W", "272", "ML"],
  ["MENAKA", "GAMK", "None", "61250", "15.52N", "002.13E", "278", "ML"],
  ["NARA/KEIBANE", "GANK", "None", "61233", "15.10N", "007.16W", "265", "ML"],
  ["NIORO DU SAHEL", "GANR", "None", "61230", "15.13N", "009.20W", "237", "ML"],
  ["SEGOU", "GASG", "None", "61272", "13.24N", "006.09W", "289", "ML"],
  ["SIKASSO", "GASK", "None", "61297", "11.20N", "005.40W", "375", "ML"],
  ["SAN", "GASN", "None", "61277", "13.19N", "004.49W", "284", "ML"],
  ["TOMBOUCTOU/TIMBU", "GATB", "None", "61223", "16.43N", "003.00W", "264", "ML"],
  ["TESSALIT", "GATS", "None", "61202", "20.11N", "000.58E", "491", "ML"],
  ["YELIMANE", "GAYE", "None", "None", "15.08N", "010.34W", "99", "ML"],
  ["BANJUL/YUNDUM IN", "GBYD", "None", "61701", "13.20N", "016.39W", "36", "GM"],
  ["BONTHE", "GFBN", "None", "61866", "07.31N", "012.30W", "8", "SL"],
  ["BO", "GFBO", "None", "61881", "07.57N", "011.46W", "93", "SL"],
  ["KABALA", "GFKB", "None", "61886", "09.34N", "011.33W", "464", "SL"],
  ["FREETOWN/LUNGI", "GFLL", "None", "61856", "08.37N", "013.11W", "27", "SL"],
  ["BAFATA", "GGBF", "None", "61781", "12.10N", "014.40W", "43", "GW"],
  ["BOLAMA", "GGBO", "None", "61769", "11.34N", "015.28W", "20", "GW"]]

end Verif
