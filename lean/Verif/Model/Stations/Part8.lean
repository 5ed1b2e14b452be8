import Verif.Model.Stations.Rows

/-
Rows of `STATIONS` (database/stations.py). Generated by tools/stations2lean.py.
-/

namespace Verif

/-- `STATIONS` (database/stations.py 8017-8116). -/
noncomputable def stations80 : List StationRow := rows! [
  ["JASK", "OIZJ", "None", "40893", "25.39N", "057.48E", "4", "IR"],
  ["ABUMUSA ISLAND", "OIBA", "None", "None", "25.53N", "055.02E", "7", "IR"],
  ["JAM AIRPORT", "OIBJ", "None", "None", "27.49N", "052.21E", "663", "IR"],
  ["PERSIAN GULF APT", "OIBP", "None", "None", "27.23N", "052.44E", "9", "IR"],
  ["KHARK ISLAND", "OIBQ", "None", "None", "29.16N", "050.19E", "6", "IR"],
  ["SIRRI ISLAND", "OIBS", "None", "None", "25.54N", "054.33E", "14", "IR"],
  ["LAVAN ISLAND", "OIBV", "None", "None", "26.49N", "053.21E", "24", "IR"],
  ["ILAM AIRPORT", "OICI", "None", "None", "33.35N", "046.24E", "1343", "IR"],
  ["MALAYER AIRPORT", "OIHM", "None", "None", "34.17N", "048.49E", "1726", "IR"],
  ["IMAM KHOMEINI", "OIIE", "None", "None", "35.25N", "051.09E", "1008", "IR"],
  ["RAFSANJAN", "OIKR", "None", "None", "30.18N", "056.03E", "1615", "IR"],
  ["SARAKHS", "OIMC", "None", "None", "36.30N", "061.04E", "288", "IR"],
  ["GONABAD", "OIMD", "None", "None", "34.23N", "058.38E", "1100", "IR"],
  ["BABOLSAR", "OINB", "None", "None", "36.43N", "052.39E", "-15", "IR"],
  ["LAR AIRPORT", "OISL", "None", "None", "27.40N", "054.22E", "805", "IR"],
  ["LAMERD AIRPORT", "OISR", "None", "None", "27.22N", "053.12E", "408", "IR"],
  ["YASOUJ AIRPORT", "OISY", "None", "None", "30.42N", "051.33E", "1811", "IR"],
  ["SAHAND AIRPORT", "OITM", "None", "None", "37.21N", "046.09E", "1340", "IR"],
  ["MAKOU AIRPORT", "OITU", "None", "None", "39.20N", "044.26E", "1364", "IR"],
  ["QUEEN ALIA INTL", "OJAI", "None", "40272", "31.43N", "036.00E", "730", "JO"],
  ["AMMAN/KING ABDUL", "OJAM", "None", "40270", "31.58N", "035.58E", "773", "JO"],
  ["AQABA INTL AIRPO", "OJAQ", "None", "40340", "29.37N", "035.01E", "51", "JO"],
  ["IRBID (MET)", "OJBD", "None", "40255", "32.32N", "035.51E", "619", "JO"],
  ["HOTEL-5 'SAFAWI'", "OJHF", "None", "40260", "32.12N", "037.07E", "670", "JO"],
  ["HOTEL-4 'IRWAISH", "OJHR", "None", "40250", "32.30N", "038.12E", "688", "JO"],
  ["MAFRAQ (JOR-AFB)", "OJMF", "None", "40265", "32.22N", "036.15E", "687", "JO"],
  ["MA'AN", "OJMN", "None", "40310", "30.10N", "035.46E", "1070", "JO"],
  ["KUWAIT INTL (MIL", "OKBK", "None", "40582", "29.13N", "047.58E", "55", "KW"],
  ["BEIRUT (CIV/MIL)", "OLBA", "None", "40100", "33.49N", "035.28E", "19", "LB"],
  ["ABU DHABI INTL", "OMAA", "None", "41217", "24.25N", "054.38E", "27", "AE"],
  ["BUHASA", "OMAB", "None", "None", "23.37N", "053.22E", "94", "AE"],
  ["ABU DHABI/BATEEN", "OMAD", "None", "41216", "24.25N", "054.28E", "3", "AE"],
  ["AL HAMRA AUX", "OMAH", "None", "None", "24.05N", "052.28E", "16", "AE"],
  ["AL AIN INTNL ARP", "OMAL", "None", "41218", "24.15N", "055.36E", "262", "AE"],
  ["DUBAI INTL AIRPO", "OMDB", "None", "41194", "25.15N", "055.22E", "5", "AE"],
  ["DELMA ISLAND", "OMDL", "None", "None", "24.30N", "052.20E", "25", "AE"],
  ["AL MINHAD AIRB", "OMDM", "None", "None", "25.02N", "055.22E", "51", "AE"],
  ["DUBAI AL MAKTOUM", "OMDW", "None", "None", "24.54N", "055.10E", "25", "AE"],
  ["FUJAIRAH INTL AR", "OMFJ", "None", "41198", "25.06N", "056.19E", "28", "AE"],
  ["RAS AL KHAIMAH", "OMRK", "None", "41184", "25.37N", "055.55E", "31", "AE"],
  ["SHARJAH INTL ARP", "OMSJ", "None", "41196", "25.19N", "055.31E", "33", "AE"],
  ["BURAIMI (AUT)", "OOBR", "None", "41244", "24.13N", "055.46E", "299", "OM"],
  ["FAHUD (AUT)", "OOFD", "None", "41262", "22.21N", "056.28E", "170", "OM"],
  ["GHABA CENTRAL(PV", "OOGB", "None", "None", "21.22N", "057.02E", "135", "OM"],
  ["HAIMA", "OOHA", "None", "None", "19.58N", "056.16E", "122", "OM"],
  ["IBRA", "OOIA", "None", "None", "22.37N", "058.40E", "1100", "OM"],
  ["IBRI", "OOII", "None", "None", "23.16N", "056.31E", "1000", "OM"],
  ["KHASSAB (MIL)", "OOKB", "None", "41240", "26.13N", "056.13E", "3", "OM"],
  ["MASIRAH (OM-AFB)", "OOMA", "None", "41288", "20.40N", "058.53E", "19", "OM"],
  ["SEEB INTL/MUSCAT", "OOMS", "None", "41256", "23.34N", "058.16E", "8", "OM"],
  ["NIZWA", "OONZ", "None", "None", "22.55N", "057.31E", "1900", "OM"],
  ["SALALAH", "OOSA", "None", "41316", "17.01N", "054.04E", "20", "OM"],
  ["SOHAR MAJIS", "OOSH", "None", "41246", "24.28N", "056.37E", "4", "OM"],
  ["SAIQ", "OOSQ", "None", "41254", "23.04N", "057.38E", "1755", "OM"],
  ["SUR", "OOSR", "None", "41268", "22.31N", "059.28E", "14", "OM"],
  ["THUMRAIT (OM-AFB", "OOTH", "None", "41314", "17.40N", "054.01E", "445", "OM"],
  ["BANNU", "OPBN", "None", "None", "32.58N", "070.31E", "404", "PK"],
  ["BAHAWALPUR", "OPBW", "None", "41700", "29.21N", "071.43E", "120", "PK"],
  ["CHITRAL", "OPCH", "None", "41506", "35.51N", "071.49E", "1500", "PK"],
  ["DERA GHAZI", "OPDG", "None", "None", "29.58N", "070.29E", "150", "PK"],
  ["DERA ISMAIL KHAN", "OPDI", "None", "41624", "31.49N", "070.55E", "173", "PK"],
  ["FAISALABAD INTL", "OPFA", "None", "None", "31.22N", "073.00E", "185", "PK"],
  ["GWADAR", "OPGD", "None", "None", "25.14N", "062.20E", "29", "PK"],
  ["GILGIT", "OPGT", "None", "41517", "35.55N", "074.19E", "1454", "PK"],
  ["JACOBABAD (CIV/M", "OPJA", "None", "41715", "28.18N", "068.28E", "56", "PK"],
  ["JIWANI (CAPE)", "OPJI", "None", "41756", "25.04N", "061.47E", "57", "PK"],
  ["KARACHI INTL ARP", "OPKC", "None", "41780", "24.53N", "067.10E", "22", "PK"],
  ["HYDERABAD AIRPOR", "OPKD", "None", "41764", "25.19N", "068.22E", "41", "PK"],
  ["KALAT", "OPKL", "None", "None", "29.01N", "066.34E", "2015", "PK"],
  ["LAHORE (CIV/MIL)", "OPLA", "None", "41641", "31.31N", "074.24E", "217", "PK"],
  ["LAHORE/WALTON", "OPLH", "None", "41640", "31.33N", "074.19E", "215", "PK"],
  ["MIANWALI (CIV/MI", "OPMI", "None", "41592", "32.32N", "071.31E", "212", "PK"],
  ["MIRANSHAH(CIV/MI", "OPMN", "None", "None", "32.58N", "070.07E", "921", "PK"],
  ["KARACHI/MASROOR", "OPMR", "None", "41781", "24.53N", "066.55E", "16", "PK"],
  ["MULTAN", "OPMT", "None", "41675", "30.11N", "071.25E", "123", "PK"],
  ["NAWABSHAH", "OPNH", "None", "41749", "26.13N", "068.22E", "38", "PK"],
  ["ORMARA", "OPOR", "None", "None", "25.13N", "064.37E", "2", "PK"],
  ["PANJGUR", "OPPG", "None", "41739", "26.57N", "064.08E", "1003", "PK"],
  ["PASNI", "OPPI", "None", "41759", "25.17N", "063.21E", "11", "PK"],
  ["PESHAWAR (CIV/MI", "OPPS", "None", "41530", "34.01N", "071.31E", "360", "PK"],
  ["QUETTA (CIV/MIL)", "OPQT", "None", "41660", "30.15N", "066.56E", "1606", "PK"],
  ["SHAIKH ZAID", "OPRK", "None", "None", "28.23N", "070.17E", "83", "PK"],
  ["ISLAMABAD (CIV/M", "OPRN", "None", "41571", "33.37N", "073.05E", "508", "PK"],
  ["RAIFIQUI (PAK-AF", "OPRQ", "None", "None", "30.46N", "072.16E", "150", "PK"],
  ["RISALPUR (PAK-AF", "OPRS", "None", "41533", "34.04N", "071.58E", "317", "PK"],
  ["SIBI", "OPSB", "None", "41697", "29.33N", "067.52E", "134", "PK"],
  ["SUKKUR", "OPSK", "None", "None", "27.43N", "068.48E", "58", "PK"],
  ["SARGODHA (PAK-AF", "OPSR", "None", "41594", "32.02N", "072.40E", "188", "PK"],
  ["SAIDU SHARIF", "OPSS", "None", "41523", "34.49N", "072.21E", "970", "PK"],
  ["SIALKOT AIRPORT", "OPST", "None", "None", "32.32N", "074.22E", "247", "PK"],
  ["TARBELA DAM", "OPTA", "None", "None", "33.59N", "072.36E", "340", "PK"],
  ["TURBAT NEW", "OPTU", "None", "None", "25.58N", "063.01E", "122", "PK"],
  ["AL KUT", "EQBC", "None", "99878", "32.28N", "045.45E", "20", "IQ"],
  ["BAGHDAD-SIRSENK", "ORBB", "None", "40650", "33.13N", "044.13E", "34", "IQ"],
  ["BALAD", "ORBD", "None", "None", "33.56N", "044.22E", "49", "IQ"],
  ["BAGHDAD INTL", "ORBI", "None", "None", "33.16N", "044.14E", "35", "IQ"],
  ["MOSUL (IRQ-AFB)", "ORBM", "None", "40608", "36.19N", "043.08E", "223", "IQ"],
  ["SADDAM(IRQ-AFB/C", "ORBS", "None", "None", "33.16N", "044.13E", "34", "IQ"],
  ["ERBIL INTL", "ORER", "None", "None", "36.14N", "043.58E", "409", "IQ"],
  ["BASRAH/MAGAL", "ORMM", "None", "40689", "30.34N", "047.40E", "2", "IQ"]]

/-- `STATIONS` (database/stations.py 8117-8216). -/
noncomputable def stations81 : List StationRow := rows! [
  ["AL NAJAF", "ORNI", "None", "None", "31.59N", "044.24E", "53", "IQ"],
  ["SHAIBAH/BASRAH", "ORMS", "None", "40688", "30.25N", "047.38E", "19", "IQ"],
  ["SULAYMANIYAH", "ORSU", "None", "None", "35.34N", "045.19E", "761", "IQ"],
  ["ALEPPO (CIV/MIL)", "OSAP", "None", "40007", "36.10N", "037.13E", "393", "SY"],
  ["DAMASCUS (CIV/MI", "OSDI", "None", "40080", "33.25N", "036.31E", "605", "SY"],
  ["DEIR ZZOR (CIV/M", "OSDZ", "None", "40045", "35.19N", "040.08E", "212", "SY"],
  ["KAMISHLI", "OSKL", "None", "40001", "37.02N", "041.12E", "455", "SY"],
  ["LATAKIA", "OSLK", "None", "40022", "35.24N", "035.57E", "7", "SY"],
  ["PALMYRA (CIV/MIL", "OSPR", "None", "40061", "34.32N", "038.17E", "404", "SY"],
  ["DOHA INTL AIRPOR", "OTBD", "None", "41170", "25.15N", "051.34E", "10", "QA"],
  ["DOHA/AL UDEID AB", "OTBH", "None", "None", "25.07N", "051.19E", "40", "QA"],
  ["DOHA HAMAD INTL", "OTHH", "None", "None", "25.15N", "051.36E", "0", "QA"],
  ["ADEN INTL", "OYAA", "None", "41480", "12.50N", "045.01E", "3", "YE"],
  ["AL GHAIDAH", "OYAG", "None", "41398", "16.05N", "052.05E", "42", "YE"],
  ["KAMARAN ISLAND", "OYAN", "None", "41430", "15.22N", "042.34E", "15", "YE"],
  ["RIYAN", "OYAR", "None", "41443", "14.35N", "049.15E", "25", "YE"],
  ["ABBS", "OYAS", "None", "None", "16.01N", "043.10E", "2000", "YE"],
  ["ATAQ", "OYAT", "None", "41437", "14.33N", "046.50E", "1039", "YE"],
  ["AL-BAYDA", "OYBI", "None", "None", "13.58N", "045.34E", "1011", "YE"],
  ["DHAMAR", "OYDM", "None", "41434", "14.32N", "044.26E", "2425", "YE"],
  ["HODEIDAH", "OYHD", "None", "41431", "14.45N", "042.58E", "115", "YE"],
  ["HAJJAH", "OYHJ", "None", "41391", "15.42N", "043.36E", "1760", "YE"],
  ["IBB", "OYIB", "None", "None", "13.58N", "044.10E", "1920", "YE"],
  ["MARIB", "OYMB", "None", "41350", "15.28N", "045.19E", "1000", "YE"],
  ["MOKHA", "OYMC", "None", "41477", "13.15N", "044.07E", "3", "YE"],
  ["MOKHA", "OYMK", "None", "41382", "13.19N", "043.16E", "3", "YE"],
  ["RMUKALLA INTL", "OYRN", "None", "None", "14.40N", "049.23E", "17", "YE"],
  ["SA'ADA/SADAH", "OYSH", "None", "None", "16.58N", "043.43E", "1890", "YE"],
  ["SANA'A (CIV/MIL)", "OYSN", "None", "41344", "15.29N", "044.13E", "2190", "YE"],
  ["SANA'A", "None", "None", "41404", "15.22N", "044.12E", "2190", "YE"],
  ["SOCOTRA ISLAND", "OYSQ", "None", "41494", "12.37N", "053.53E", "45", "YE"],
  ["SAYUN", "OYSY", "None", "None", "15.58N", "048.47E", "701", "YE"],
  ["TAIZ/GANED", "OYTZ", "None", "41466", "13.40N", "044.07E", "1385", "YE"],
  ["AL-HAZM", "OYZM", "None", "41326", "16.11N", "044.46E", "1900", "YE"],
  ["AL-GHAIDAH", "OYGD", "None", "None", "16.11N", "052.10E", "41", "YE"],
  ["ADEN KHORMAKSAR", "ODAA", "None", "41467", "12.49N", "045.01E", "3", "YE"],
  ["ALMA-ATA", "UAAA", "None", "36870", "43.21N", "077.02E", "847", "KZ"],
  ["UZUNAGAC", "UAAN", "None", "36874", "43.36N", "076.19E", "685", "KZ"],
  ["ASTANA KAZAKHSTA", "UACC", "None", "None", "51.01N", "071.28E", "355", "KZ"],
  ["PETROPAVLOVSK", "UACP", "None", "None", "54.47N", "069.11E", "142", "KZ"],
  ["KOKSHETAU", "UACK", "None", "None", "53.19N", "069.35E", "2547", "KZ"],
  ["TARAZ", "UADD", "None", "None", "42.51N", "071.18E", "665", "KZ"],
  ["FRUNZE", "UAFF", "None", "38353", "42.51N", "074.31E", "760", "KZ"],
  ["CIMKENT", "UAII", "None", "38328", "42.22N", "069.29E", "422", "KZ"],
  ["ZHEZKAZGAN", "UAKD", "None", "None", "47.42N", "067.44E", "381", "KZ"],
  ["KARAGANDA", "UAKK", "None", "None", "49.40N", "073.20E", "538", "KZ"],
  ["KZYL-ORDA", "UAOO", "None", "38062", "44.42N", "065.36E", "129", "KZ"],
  ["URALSK", "UARR", "None", "35108", "51.09N", "051.32E", "38", "KZ"],
  ["PAVLODAR", "UASP", "None", "None", "52.12N", "077.04E", "125", "KZ"],
  ["ARALSK", "UATA", "None", "35746", "46.47N", "061.39E", "56", "KZ"],
  ["AKTAU KAZAKHSTAN", "UATE", "None", "None", "43.52N", "051.06E", "22", "KZ"],
  ["ATYRAU", "UATG", "None", "None", "47.07N", "051.50E", "-22", "KZ"],
  ["CELKAR", "UATR", "None", "35633", "47.51N", "059.37E", "176", "KZ"],
  ["AKTJUBINSK", "UATT", "None", "35229", "50.15N", "057.12E", "227", "KZ"],
  ["KOSTANAY", "UAUU", "None", "None", "53.12N", "063.33E", "182", "KZ"],
  ["BISHKEK/MANAS", "UAFM", "None", "None", "43.04N", "074.29E", "760", "KZ"],
  ["OSH", "UAFO", "OSS", "None", "40.36N", "072.48E", "892", "KZ"],
  ["BAKU/BINE ARPT", "UBBB", "None", "37864", "40.27N", "050.04E", "-6", "AZ"],
  ["GYANDZHA", "UBBG", "None", "None", "40.44N", "046.19E", "330", "AZ"],
  ["LENKORAN", "UBBL", "None", "None", "38.45N", "048.49E", "10", "AZ"],
  ["NAKHCHIVAN", "UBBN", "None", "None", "39.11N", "045.27E", "873", "AZ"],
  ["QABALA", "UBBQ", "None", "None", "40.49N", "047.43E", "338", "AZ"],
  ["ZAKATALY", "UBBY", "None", "None", "41.34N", "046.40E", "390", "AZ"],
  ["MANAS", "UCFM", "None", "None", "43.04N", "074.29E", "633", "KG"],
  ["OSH", "UCFO", "None", "None", "40.36N", "072.48E", "884", "KG"],
  ["TBILISI/NOVO-AL", "UGTB", "None", "37549", "41.40N", "044.57E", "495", "GE"],
  ["KOPITNARI", "UGKO", "None", "None", "42.11N", "042.29E", "68", "GE"],
  ["BATUMI", "UGSB", "None", "37484", "41.37N", "041.36E", "32", "GE"],
  ["POTI (PORT)", "UGSP", "None", "37379", "42.09N", "041.40E", "3", "GE"],
  ["TBILISI/NOVO-AL", "UGGG", "None", "None", "41.40N", "044.57E", "490", "GE"],
  ["MUHRANI", "UGMM", "None", "37541", "41.55N", "044.34E", "551", "GE"],
  ["YEREVAN/ZAPADNY", "UGEE", "None", "37789", "40.07N", "044.28E", "907", "AM"],
  ["SHIRAK", "UGEL", "None", "None", "40.45N", "043.51E", "1524", "AM"],
  ["SHIRAK", "UDSG", "None", "None", "40.45N", "043.52E", "1524", "AM"],
  ["ZVARTNOTS", "UDYZ", "None", "None", "40.09N", "044.24E", "865", "AM"],
  ["UST KAMENOGORSK", "UASK", "None", "None", "50.02N", "082.30E", "286", "RU"],
  ["YAKUTSK", "UEEE", "None", "24959", "62.05N", "129.46E", "103", "RU"],
  ["CULMAN/NERIUGRI", "UELL", "None", "30393", "56.55N", "124.55E", "859", "RU"],
  ["POLYARNY", "UERP", "None", "None", "66.24N", "112.02E", "509", "RU"],
  ["MIRNY", "UERR", "None", "None", "62.32N", "114.03E", "347", "RU"],
  ["CHOKURDAKH", "UESO", "None", "None", "70.38N", "147.55E", "26", "RU"],
  ["TIKSI", "UEST", "None", "None", "71.42N", "128.54E", "7", "RU"],
  ["BLAGOVESHCHENSK", "UHBB", "None", "31510", "50.26N", "127.25E", "195", "RU"],
  ["EKIMCAN", "UHBP", "None", "31329", "53.04N", "132.55E", "543", "RU"],
  ["KHABAROVSK/NOVY", "UHHH", "None", "31735", "48.31N", "135.11E", "72", "RU"],
  ["TROICKOE", "UHHO", "None", "31655", "49.27N", "136.34E", "29", "RU"],
  ["ANADYR'", "UHMA", "None", "25563", "64.44N", "177.44E", "62", "RU"],
  ["PROVIDENJA BAY", "UHMD", "None", "25594", "64.23N", "173.13W", "3", "RU"],
  ["CHAYBUKHA", "UHMG", "None", "None", "61.50N", "160.33E", "1", "RU"],
  ["MYS SCHMIDTA", "UHMI", "None", "None", "68.54N", "179.27W", "1", "RU"],
  ["LAVRENTIJA", "UHML", "None", "25496", "65.35N", "171.00W", "9", "RU"],
  ["MAGADAN/NAGAEVO", "UHMM", "None", "25913", "59.55N", "150.43E", "118", "RU"],
  ["MARKOVO", "UHMO", "None", "None", "64.39N", "170.27E", "18", "RU"],
  ["PEVEK", "UHMP", "None", "25051", "69.47N", "170.36E", "4", "RU"],
  ["UGOLNAYA BAY/BE", "UHMR", "None", "25677", "63.02N", "179.19E", "1", "RU"],
  ["NIKOLAEVSK-NA-AM", "UHNN", "None", "31369", "53.09N", "140.39E", "68", "RU"],
  ["PETROPAVLOVSK-KA", "UHPP", "None", "32540", "53.10N", "158.27E", "40", "RU"],
  ["OKHA", "UHSH", "None", "32010", "53.31N", "142.53E", "37", "RU"],
  ["JUZNO-SAHALINSK", "UHSS", "None", "32150", "46.53N", "142.43E", "31", "RU"],
  ["VLADIVOSTOK", "UHWW", "None", "31960", "43.24N", "132.09E", "184", "RU"]]

/-- `STATIONS` (database/stations.py 8217-8316). -/
noncomputable def stations82 : List StationRow := rows! [
  ["CITA/KADALA", "UIAA", "None", "30758", "52.01N", "113.19E", "685", "RU"],
  ["BRATSK/IRKUTSK", "UIBB", "None", "None", "56.22N", "101.42E", "490", "RU"],
  ["IRKUTSK", "UIII", "None", "30710", "52.16N", "104.24E", "513", "RU"],
  ["UST-ORDYNSKIJ", "UIIO", "None", "30713", "52.49N", "104.46E", "525", "RU"],
  ["BODAJBO", "UIKB", "None", "30253", "57.51N", "114.12E", "278", "RU"],
  ["KIRENSK", "UIKK", "None", "30230", "57.46N", "108.04E", "258", "RU"],
  ["VITIM-IN-YAKUT", "UIKW", "None", "30054", "59.27N", "112.34E", "193", "RU"],
  ["NIZNE-UDINSK", "UINN", "None", "29698", "54.52N", "099.01E", "410", "RU"],
  ["HORINSK", "UIUH", "None", "30739", "52.10N", "109.46E", "666", "RU"],
  ["ULAN-UDE/MUHINO", "UIUU", "None", "30823", "51.48N", "107.27E", "515", "RU"],
  ["MARIUPOL INTL", "UKCM", "None", "None", "47.05N", "037.27E", "76", "RU"],
  ["ARHANGELSK", "ULAA", "None", "22550", "64.36N", "040.43E", "19", "RU"],
  ["AMDERMA", "ULDD", "None", "23022", "69.45N", "061.34E", "49", "RU"],
  ["KOTLAS", "ULAK", "None", "None", "61.14N", "046.38E", "56", "RU"],
  ["KOTLAS", "ULKK", "None", "22887", "61.14N", "046.42E", "56", "RU"],
  ["ST PETERSBURG", "ULLI", "None", "26063", "59.48N", "030.16E", "4", "RU"],
  ["MURMANSK", "ULMM", "None", "None", "68.47N", "032.45E", "51", "RU"],
  ["MURMANSK", "None", "None", "22113", "68.58N", "033.03E", "51", "RU"],
  ["VELIKIE LUKI", "ULOL", "None", "26477", "56.22N", "030.36E", "98", "RU"],
  ["PSKOV", "ULOO", "None", "26258", "57.47N", "028.24E", "47", "RU"],
  ["PETROZAVODSK", "ULPB", "None", "None", "61.53N", "034.09E", "46", "RU"],
  ["TALLINN", "ULTT", "None", "None", "59.21N", "024.48E", "44", "RU"],
  ["BOTOVO/CHEREPOVE", "ULWC", "None", "27113", "59.17N", "038.01E", "115", "RU"],
  ["TOT'MA", "ULWT", "None", "27051", "59.52N", "042.45E", "134", "RU"],
  ["VOLOGDA", "ULWW", "None", "27037", "59.17N", "039.56E", "131", "RU"],
  ["KALININGRAD", "UMKK", "None", "None", "54.53N", "020.36E", "21", "RU"],
  ["ABAKAN", "UNAA", "None", "None", "53.45N", "091.24E", "245", "RU"],
  ["BARNAUL", "UNBB", "None", "29838", "53.25N", "083.31E", "255", "RU"],
  ["NOVOKUZNETSK", "UNCE", "None", "29846", "53.43N", "087.10E", "308", "RU"],
  ["KOLPASHEVO-IN-T", "UNCL", "None", "29231", "58.17N", "082.52E", "76", "RU"],
  ["KEMEROVO", "UNEE", "None", "None", "55.16N", "086.05E", "260", "RU"],
  ["JENISEJSK", "UNII", "None", "29263", "58.27N", "092.09E", "78", "RU"],
  ["ABAKAN", "UNKA", "None", "29865", "53.45N", "091.24E", "245", "RU"],
  ["VANAVARA", "UNKI", "None", "24908", "60.19N", "102.16E", "260", "RU"],
  ["KRASNOJARSK", "UNKK", "None", "29574", "56.00N", "092.52E", "277", "RU"],
  ["KRASNOYARSK", "UNKL", "KJA", "29570", "56.10N", "092.29E", "276", "RU"],
  ["PODKAMENNAYA TU", "UNKT", "None", "23884", "61.36N", "090.00E", "63", "RU"],
  ["NOVOSIBIRSK/TOLM", "UNNN", "None", "29634", "55.05N", "082.59E", "177", "RU"],
  ["TOLMACHEVO", "UNNT", "None", "None", "55.01N", "082.38E", "111", "RU"],
  ["TSENTRALNY/OMSK", "UNOO", "OMS", "None", "54.58N", "073.19E", "95", "RU"],
  ["PLOTNIKOVO/TOMSK", "UNTT", "None", "None", "56.23N", "085.13E", "182", "RU"],
  ["NOVOKUZNETSK", "UNWW", "None", "None", "53.49N", "086.53E", "308", "RU"],
  ["KHATANGA", "UOHH", "None", "20891", "71.59N", "102.30E", "33", "RU"],
  ["IGARKA", "UOII", "None", "23274", "67.26N", "086.37E", "31", "RU"],
  ["ALYKEL", "UOOO", "None", "None", "69.19N", "087.20E", "175", "RU"],
  ["ANAPA/VITIAZEVO", "URKA", "None", "None", "45.00N", "037.21E", "53", "RU"],
  ["KRASNODAR", "URKK", "None", "34929", "45.02N", "039.09E", "34", "RU"],
  ["MAYKOP", "URKM", "None", "None", "44.41N", "040.02E", "558", "RU"],
  ["GROZNY", "URMG", "None", "None", "43.22N", "045.42E", "263", "RU"],
  ["UYTASH", "URML", "MCX", "None", "42.49N", "047.39E", "4", "RU"],
  ["MINERALYNE VODY", "URMM", "None", "37054", "44.13N", "043.06E", "314", "RU"],
  ["NALCHIK", "URMN", "NAL", "None", "43.31N", "043.38E", "445", "RU"],
  ["BESLAN", "URMO", "None", "None", "43.12N", "044.36E", "510", "RU"],
  ["STAVROPOL/SHPAKO", "URMT", "None", "None", "45.07N", "042.07E", "453", "RU"],
  ["ROSTOV-ON-DON", "URRR", "None", "34731", "47.15N", "039.49E", "77", "RU"],
  ["SOTCHI", "URSS", "None", "37171", "43.27N", "039.57E", "16", "RU"],
  ["ASTRAKHAN", "URWA", "ASF", "34880", "46.17N", "048.01E", "-20", "RU"],
  ["ELISTA", "URWI", "None", "34861", "46.22N", "044.20E", "150", "RU"],
  ["VOLGOGRAD/GUMRAK", "URWW", "None", "34560", "48.47N", "044.20E", "147", "RU"],
  ["CHELYABINSK-BALA", "USCC", "None", "None", "55.18N", "061.30E", "234", "RU"],
  ["MAGNITOGORSK", "USCM", "None", "None", "53.24N", "058.45E", "435", "RU"],
  ["SALEKHARD", "USDD", "None", "23330", "66.35N", "066.37E", "67", "RU"],
  ["KHANTY-MANSIYSK", "USHH", "None", "23933", "61.02N", "069.05E", "23", "RU"],
  ["NADYM", "USMM", "None", "None", "65.29N", "072.42E", "15", "RU"],
  ["NOVYI URENGOI", "USMU", "None", "23358", "66.04N", "076.31E", "59", "RU"],
  ["PERM/BOLSHOE SAV", "USPP", "None", "None", "57.55N", "056.01E", "123", "RU"],
  ["SURGUT", "USRR", "None", "23849", "61.20N", "073.25E", "44", "RU"],
  ["NIZHNEVARTOVSK", "USNN", "None", "None", "60.57N", "076.29E", "54", "RU"],
  ["RADUZHNY", "USNR", "RAT", "None", "62.09N", "077.20E", "76", "RU"],
  ["RUSSKINSKAJA", "USRK", "KGP", "23748", "62.11N", "074.32E", "68", "RU"],
  ["IVDEL-IN-SVERDL", "USSI", "None", "23921", "60.40N", "060.25E", "101", "RU"],
  ["EKATERINBURG", "USSS", "None", "None", "56.45N", "060.49E", "233", "RU"],
  ["EKATERINBURG", "None", "None", "28440", "56.50N", "060.38E", "280", "RU"],
  ["ROSCHINO", "USTR", "TJM", "None", "57.10N", "065.19E", "115", "RU"],
  ["UGRYUMOVO", "UUBC", "None", "None", "54.33N", "036.22E", "199", "RU"],
  ["IVANOVO SOUTH", "UUBI", "None", "None", "56.56N", "040.57E", "125", "RU"],
  ["BRJANSK", "UUBP", "None", "26898", "53.13N", "034.11E", "202", "RU"],
  ["MOSCOW/NOVOYE SR", "UUBW", "None", "None", "55.33N", "038.09E", "115", "RU"],
  ["MOSCOW/DOMODEDOV", "UUDD", "None", "None", "55.24N", "037.54E", "168", "RU"],
  ["YAROSLAV", "UUDL", "None", "None", "57.34N", "040.10E", "88", "RU"],
  ["MOSCOW/SHEREMET'", "UUEE", "None", "None", "55.58N", "037.25E", "190", "RU"],
  ["KALININ/MIGALOVO", "UUEM", "None", "27402", "56.49N", "035.45E", "143", "RU"],
  ["OSTAFYEVO INTL", "UUMO", "None", "None", "55.31N", "037.30E", "174", "RU"],
  ["BELGOROD", "UUOB", "None", "None", "50.39N", "036.35E", "224", "RU"],
  ["KURSK", "UUOK", "None", "None", "51.45N", "036.17E", "209", "RU"],
  ["VORONEZ", "UUOO", "None", "34122", "51.49N", "039.14E", "157", "RU"],
  ["MOSCOW/VNUKOVO", "UUWW", "None", "None", "55.36N", "037.16E", "203", "RU"],
  ["USINSK", "UUYS", "None", "23417", "66.00N", "057.22E", "80", "RU"],
  ["UST-KULOM", "UUYT", "None", "23803", "61.40N", "053.40E", "139", "RU"],
  ["UKHTA", "UUYH", "UCT", "None", "63.34N", "053.48E", "149", "RU"],
  ["SYKTYVKAR", "UUYY", "None", "23804", "61.39N", "050.49E", "119", "RU"],
  ["NIZHNY NOVGOROD", "UWGG", "None", "None", "56.14N", "043.47E", "73", "RU"],
  ["KAZAN", "UWKD", "None", "None", "55.37N", "049.17E", "126", "RU"],
  ["BEGISHEVO", "UWKE", "None", "None", "55.34N", "052.05E", "196", "RU"],
  ["CHEBOKSARY", "UWKS", "None", "None", "56.05N", "047.21E", "170", "RU"],
  ["ULJANOVSK", "UWLL", "None", "None", "54.16N", "048.14E", "134", "RU"],
  ["ULYANOVSK", "UWLW", "None", "None", "54.24N", "048.48E", "66", "RU"],
  ["ORENBURG/TSENTRA", "UWOO", "None", "None", "51.48N", "055.28E", "109", "RU"],
  ["ORSK", "UWOR", "None", "None", "51.04N", "058.36E", "277", "RU"],
  ["PENZA (STREAM)", "UWPP", "None", "27962", "53.07N", "045.01E", "174", "RU"]]

/-- `STATIONS` (database/stations.py 8317-8416). -/
noncomputable def stations83 : List StationRow := rows! [
  ["SARATOV/TSENTRAL", "UWSS", "None", "None", "51.34N", "046.04E", "166", "RU"],
  ["BASHKORTOSTAN", "UWUU", "None", "None", "54.34N", "055.52E", "137", "RU"],
  ["KURUMOCH", "UWWW", "None", "None", "53.30N", "050.10E", "146", "RU"],
  ["KUJBYSEV/BEZENCU", "UWWS", "None", "28900", "53.13N", "050.19E", "44", "RU"],
  ["VORKUTA", "UUYW", "None", "None", "67.29N", "064.00E", "185", "RU"],
  ["BORISPOL'/KIEV", "UKBB", "None", "33347", "50.20N", "030.54E", "119", "UA"],
  ["DONETSK", "UKCC", "None", "None", "48.05N", "037.45E", "241", "UA"],
  ["LUHANSK", "UKCW", "None", "None", "48.25N", "039.23E", "194", "UA"],
  ["DNIPROPETROVSK", "UKDD", "None", "None", "48.22N", "035.06E", "149", "UA"],
  ["MOKRAYA", "UKDE", "OZH", "None", "47.52N", "035.19E", "113", "UA"],
  ["KRIVYY RIH", "UKDR", "None", "None", "48.03N", "033.13E", "124", "UA"],
  ["SIMFEROPOL'", "UKFF", "None", "33946", "45.02N", "033.59E", "188", "UA"],
  ["HAR'KOV/OSNOVA", "UKHH", "None", "34300", "49.55N", "036.17E", "155", "UA"],
  ["CHERKASY", "UKKE", "None", "None", "49.25N", "032.00E", "114", "UA"],
  ["KIEV/ZHYLIANY", "UKKK", "None", "None", "50.24N", "030.27E", "179", "UA"],
  ["KIEV", "None", "None", "33345", "50.24N", "030.34E", "167", "UA"],
  ["GOSTOMEL'", "UKKM", "None", "None", "50.36N", "030.12E", "157", "UA"],
  ["IVANO-FRANKIVSK", "UKLI", "None", "None", "48.53N", "024.41E", "280", "UA"],
  ["LVIV", "UKLL", "None", "33393", "49.49N", "023.56E", "325", "UA"],
  ["CHERNOVTSY", "UKLN", "None", "None", "48.16N", "025.59E", "252", "UA"],
  ["ROVNO", "UKLR", "None", "None", "50.36N", "026.08E", "230", "UA"],
  ["UZHGOROD", "UKLU", "UDJ", "None", "48.38N", "022.16E", "117", "UA"],
  ["KHERSON", "UKOH", "None", "None", "46.40N", "032.30E", "45", "UA"],
  ["MYKOLAIV", "UKON", "NLV", "None", "47.03N", "031.55E", "56", "UA"],
  ["ODESSA/TSENTRALN", "UKOO", "None", "33837", "46.25N", "030.41E", "35", "UA"],
  ["VINNITSA", "UKWW", "None", "None", "49.15N", "028.36E", "293", "UA"],
  ["LIEPAJA INTL", "EVLA", "None", "26406", "56.31N", "021.06E", "4", "LV"],
  ["RIGA AIRPORT", "EVRA", "None", "None", "56.55N", "023.58E", "10", "LV"],
  ["VENTPILS", "EVVA", "None", "None", "57.21N", "021.33E", "6", "LV"],
  ["RIGA", "UMRR", "None", "26422", "56.58N", "024.04E", "3", "LV"],
  ["VENTSPILS (HARBO", "UMRW", "None", "26314", "57.22N", "021.33E", "4", "LV"],
  ["BREST", "UMBB", "None", "None", "52.07N", "023.54E", "143", "BY"],
  ["GOMEL", "UMGG", "None", "None", "52.32N", "031.01E", "144", "BY"],
  ["VITEBSK", "UMII", "None", "26666", "55.08N", "030.21E", "208", "BY"],
  ["UNKNOWN", "UMLI", "None", "None", "53.46N", "027.35E", "214", "BY"],
  ["GRODNO", "UMMG", "None", "None", "53.36N", "024.03E", "135", "BY"],
  ["MINSK-IN-MIN", "UMMM", "None", "None", "53.52N", "027.31E", "234", "BY"],
  ["MINSK", "UMMS", "None", "26850", "53.53N", "028.02E", "205", "BY"],
  ["MOGILEV", "UMOO", "None", "None", "53.57N", "030.06E", "194", "BY"],
  ["ASHGABAT", "UTAA", "None", "None", "37.59N", "058.22E", "210", "TM"],
  ["TURKMENBASHI", "UTAK", "None", "38570", "40.03N", "053.00E", "85", "TM"],
  ["MARY", "UTAM", "None", "None", "37.37N", "061.54E", "222", "TM"],
  ["DASHOGUZ", "UTAT", "None", "None", "41.46N", "059.50E", "83", "TM"],
  ["TURKMENABAT", "UTAV", "None", "None", "39.05N", "063.37E", "192", "TM"],
  ["DZIZAK", "UTED", "None", "38579", "40.07N", "067.49E", "345", "TM"],
  ["SHAHRISABZ", "UTSH", "None", "None", "39.02N", "066.47E", "599", "TM"],
  ["TAMDY-BULAK", "UTSM", "None", "38413", "41.43N", "064.37E", "238", "TM"],
  ["DUSHANBE", "UTDD", "None", "38836", "38.32N", "068.49E", "803", "TJ"],
  ["KOLUB", "UTDK", "None", "None", "37.59N", "069.48E", "699", "TJ"],
  ["KHUDZHAND", "UTDL", "None", "None", "40.13N", "069.42E", "442", "TJ"],
  ["QURGHONTEPPA", "UTDT", "None", "None", "37.52N", "068.52E", "449", "TJ"],
  ["ANDIZAN", "UTFA", "AZN", "38475", "40.44N", "072.18E", "477", "UZ"],
  ["NAMANGAN", "UTFN", "NMA", "None", "40.59N", "071.34E", "490", "UZ"],
  ["FERGANA", "UTFF", "FRG", "38618", "40.22N", "071.46E", "577", "UZ"],
  ["NAMANGAN", "UTKN", "None", "38611", "40.59N", "071.35E", "474", "UZ"],
  ["NUKUS/KARAKALPAK", "UTNN", "NCU", "None", "42.29N", "059.38E", "67", "TM"],
  ["URGENCH", "UTNU", "URG", "None", "41.35N", "060.38E", "98", "TM"],
  ["NAVOI", "UTSA", "None", "None", "40.07N", "065.10E", "346", "UZ"],
  ["BUKHARA", "UTSB", "BHK", "38683", "39.46N", "064.29E", "226", "UZ"],
  ["KARSHI KHANABAD", "UTSK", "None", "None", "38.50N", "065.46E", "1365", "UZ"],
  ["SAMARKAND", "UTSS", "SMD", "38696", "39.38N", "066.56E", "724", "TM"],
  ["TERMEZ", "UTST", "TMJ", "38927", "37.17N", "067.19E", "302", "TM"],
  ["TASHKENT-VOSTOCH", "UTTP", "TAS", "None", "41.19N", "069.23E", "466", "UZ"],
  ["TASKENT/YUZNI", "UTTT", "TAS", "38457", "41.16N", "069.16E", "489", "TM"],
  ["ANDIZAN", "UTKA", "None", "None", "40.44N", "072.20E", "477", "UZ"],
  ["FERGANA", "UTKF", "None", "None", "40.22N", "071.45E", "577", "UZ"],
  ["BEIJING/PEKING", "ZBAA", "None", "54511", "40.04N", "116.35E", "30", "CN"],
  ["HUHHOT", "ZBHH", "None", "53463", "40.51N", "111.49E", "1065", "CN"],
  ["BAOTOU", "ZBOW", "None", "None", "40.40N", "109.59E", "1049", "CN"],
  ["ZHENGDING", "ZBSJ", "SJW", "None", "38.17N", "114.42E", "71", "CN"],
  ["TIANJIN/ZHANGGUI", "ZBTJ", "None", "None", "39.07N", "117.21E", "3", "CN"],
  ["TAIYUAN/WUSU", "ZBYN", "None", "53772", "37.46N", "112.38E", "779", "CN"],
  ["BEIHAI", "ZGBH", "None", "59644", "21.29N", "109.06E", "16", "CN"],
  ["CHANGSHA/DATUOPU", "ZGCS", "None", "57679", "28.11N", "113.04E", "46", "CN"],
  ["DAYONG", "ZGDY", "None", "None", "29.08N", "110.29E", "900", "CN"],
  ["GUANGZHOU/BAIYUN", "ZGGG", "None", "59287", "23.24N", "113.18E", "15", "CN"],
  ["HUANGHUA/CHANGSH", "ZGHA", "CSX", "None", "28.11N", "113.13E", "66", "CN"],
  ["HAIKOU", "ZGHK", "None", "59758", "20.01N", "110.20E", "15", "CN"],
  ["GUILIN", "ZGKL", "None", "57957", "25.13N", "110.02E", "166", "CN"],
  ["SHAN-TOU", "ZGOW", "None", "59316", "23.33N", "116.30E", "3", "CN"],
  ["NANNING/WUXU", "ZGNN", "None", "59431", "22.37N", "108.10E", "73", "CN"],
  ["SHENZHEN", "ZGSZ", "None", "59493", "22.38N", "113.48E", "18", "CN"],
  ["ZHANJIANG", "ZGZJ", "None", "59658", "21.13N", "110.24E", "28", "CN"],
  ["ZHENGZHOU", "ZHCC", "None", "57083", "34.31N", "113.50E", "111", "CN"],
  ["WUHAN/NANHU", "ZHHH", "None", "57494", "30.47N", "114.13E", "23", "CN"],
  ["HAIKOU", "ZJHK", "None", "None", "19.56N", "110.28E", "23", "CN"],
  ["SANYA/FENGHUANG", "ZJSY", "None", "None", "18.18N", "109.25E", "27", "CN"],
  ["KIMCHAEK/SONGJIN", "ZKKC", "None", "47025", "40.40N", "129.11E", "23", "CN"],
  ["PYONGYANG/SUNAN", "ZKPY", "None", "47058", "39.01N", "125.46E", "38", "CN"],
  ["HEDONG AIRPORT", "ZLIC", "None", "53614", "38.19N", "106.24E", "1112", "CN"],
  ["JIUQUAN/SUZHOU", "ZLJQ", "None", "52533", "39.46N", "098.28E", "1478", "CN"],
  ["LANZHOU", "ZLLL", "None", "52889", "36.31N", "103.37E", "1947", "CN"],
  ["XI'AN", "ZLSN", "None", "57036", "34.17N", "108.55E", "398", "CN"],
  ["XINING", "ZLXN", "None", "52866", "36.37N", "101.46E", "2262", "CN"],
  ["XIANYANG", "ZLXY", "None", "None", "34.26N", "108.45E", "479", "CN"],
  ["YAN AN", "ZLYA", "None", "53845", "36.36N", "109.30E", "959", "CN"],
  ["ULAN-BATOR", "ZMUB", "None", "None", "47.50N", "106.47E", "1330", "CN"],
  ["BOSHANG LINCANG", "ZPLC", "None", "None", "23.42N", "100.01E", "2107", "CN"],
  ["KUNMING/WUJIABA", "ZPPP", "None", "56778", "25.00N", "102.45E", "1892", "CN"],
  ["XIAMEN", "ZSAM", "None", "59134", "24.32N", "118.08E", "139", "CN"]]

/-- `STATIONS` (database/stations.py 8417-8516). -/
noncomputable def stations84 : List StationRow := rows! [
  ["CHANGZHOU", "ZSCG", "None", "None", "31.42N", "119.58E", "2", "CN"],
  ["NANCHANG", "ZSCN", "None", "58606", "28.36N", "115.55E", "50", "CN"],
  ["FUZHOU", "ZSFZ", "None", "58847", "25.56N", "119.40E", "85", "CN"],
  ["GAN-ZHOU", "ZSGZ", "CI2", "57993", "25.51N", "114.57E", "125", "CN"],
  ["HANGZHOU/JIANQIA", "ZSHC", "None", "58457", "30.13N", "120.26E", "43", "CN"],
  ["JINAN YAOQIANG", "ZSJN", "None", "None", "36.51N", "117.13E", "23", "CN"],
  ["HUANGYAN", "ZSLC", "None", "None", "28.25N", "122.22E", "1", "CN"],
  ["NINGBO/LISHE", "ZSNB", "None", "None", "29.50N", "121.28E", "4", "CN"],
  ["NANJING/NANKING", "ZSNJ", "None", "58238", "31.56N", "118.54E", "33", "CN"],
  ["NANTONG", "ZSNT", "None", "None", "32.01N", "120.51E", "6", "CN"],
  ["HEFEI/LUOGANG", "ZSOF", "None", "58321", "31.47N", "117.18E", "33", "CN"],
  ["SHANGHAI/PUDONG", "ZSPD", "PVG", "None", "31.09N", "121.48E", "4", "CN"],
  ["QINGDAO/TSINGTAO", "ZSQD", "None", "54857", "36.16N", "120.23E", "77", "CN"],
  ["SHANGHAI/HONGQIA", "ZSSS", "None", "58367", "31.12N", "121.20E", "7", "CN"],
  ["JINAN/TSINAN", "ZSTN", "None", "54823", "36.40N", "116.58E", "58", "CN"],
  ["TUNXI", "ZSTX", "None", "None", "29.43N", "118.16E", "145", "CN"],
  ["WUYISHAN", "ZSWY", "None", "None", "27.45N", "118.02E", "298", "CN"],
  ["WENZHOU", "ZSWZ", "None", "None", "28.01N", "120.39E", "7", "CN"],
  ["XUZHOU", "ZSXZ", "None", "None", "34.16N", "117.11E", "42", "CN"],
  ["CHONGQING/CHUNGK", "ZUCK", "None", "57516", "29.43N", "106.38E", "351", "CN"],
  ["GUIYANG", "ZUGY", "None", "57816", "26.32N", "106.48E", "1074", "CN"],
  ["LHASA", "ZULS", "None", "None", "29.18N", "090.55E", "3650", "CN"],
  ["LHASA", "None", "None", "55591", "29.40N", "091.08E", "3650", "CN"],
  ["CHENGDU", "ZUUU", "None", "56294", "30.35N", "103.57E", "508", "CN"],
  ["HAMI", "ZWHM", "None", "52203", "42.49N", "093.31E", "739", "CN"],
  ["KASHI", "ZWSH", "None", "51709", "39.33N", "076.01E", "1291", "CN"],
  ["HOTAN", "ZWTN", "None", "51828", "37.07N", "079.55E", "1375", "CN"],
  ["URUM-QI/DIWOPU", "ZWWW", "None", "None", "43.53N", "087.28E", "654", "CN"],
  ["YINING", "ZWYN", "None", "51431", "43.57N", "081.19E", "663", "CN"],
  ["CHANGCHUN", "ZYCC", "None", "54161", "43.59N", "125.41E", "238", "CN"],
  ["CHAOYANG", "ZYCY", "None", "54324", "41.36N", "120.24E", "176", "CN"],
  ["HARBIN", "ZYHB", "None", "50953", "45.37N", "126.15E", "140", "CN"],
  ["JILIN/CHANGCHUN", "ZYJL", "None", "None", "43.52N", "126.39E", "187", "CN"],
  ["MUDANJIANG-HAILA", "ZYMD", "None", "None", "44.31N", "129.34E", "269", "CN"],
  ["QIQIHAR", "ZYQQ", "None", "50745", "47.22N", "123.55E", "148", "CN"],
  ["DALIAN/DAIREN/LU", "ZYTL", "None", "54662", "38.58N", "121.32E", "97", "CN"],
  ["SHENYANG/TAOKIAN", "ZYTX", "None", "None", "41.38N", "123.29E", "35", "CN"],
  ["YANJI", "ZYYJ", "None", "None", "42.53N", "129.27E", "190", "CN"],
  ["SHENYANG/DONGTA", "ZYYY", "None", "54342", "41.47N", "123.30E", "43", "CN"],
  ["CHEN-ZHOU", "None", "CI1", "57972", "25.49N", "113.01E", "185", "CN"],
  ["WU-ZHOU", "None", "CI3", "59265", "23.29N", "111.18E", "120", "CN"],
  ["XI-SHA ISLAND", "None", "CI6", "59981", "16.50N", "112.20E", "5", "CN"],
  ["TAIPEI TAOYUAN", "RCTP", "None", "46686", "25.04N", "121.13E", "33", "TW"],
  ["MAZU", "RCFG", "None", "46689", "26.10N", "119.55E", "91", "TW"],
  ["SUNGSHAN/TAIPEI", "RCSS", "None", "46696", "25.04N", "121.32E", "6", "TW"],
  ["TAOYUAN AB", "RCGM", "None", "46697", "25.04N", "121.13E", "45", "TW"],
  ["DONGSHI", "RCNO", "None", "46730", "23.16N", "119.40E", "45", "TW"],
  ["MAKUNG AB", "RCQC", "None", "46734", "23.34N", "119.37E", "31", "TW"],
  ["CHINMEM/SHATOU", "RCBS", "None", "46736", "24.25N", "118.22E", "9", "TW"],
  ["PA KUEI/BAKUAI", "RCUK", "None", "46738", "24.55N", "121.17E", "141", "TW"],
  ["KAOHSIUNG INTL", "RCKH", "None", "46740", "22.34N", "120.20E", "9", "TW"],
  ["TAINAN TW-AFB", "RCNN", "None", "46743", "22.56N", "120.12E", "19", "TW"],
  ["KANGSHAN TW-AFB", "RCAY", "None", "46745", "22.46N", "120.16E", "10", "TW"],
  ["CHIAYI TW-AFB", "RCKU", "None", "46746", "23.28N", "120.22E", "25", "TW"],
  ["DONGGANG", "RCMJ", "None", "46747", "22.28N", "120.25E", "8", "TW"],
  ["PINGTUNG SOUTH", "RCDC", "None", "46750", "22.40N", "120.28E", "24", "TW"],
  ["TAICHUNG TW-AFB", "RCLG", "None", "46751", "24.10N", "120.39E", "112", "TW"],
  ["HENGCHUN", "RCKW", "None", "46752", "21.55N", "120.49E", "13", "TW"],
  ["HSINCHU TW-AFB", "RCPO", "None", "46756", "24.49N", "120.55E", "8", "TW"],
  ["PINGTUNG N AFB", "RCSQ", "None", "46758", "22.41N", "120.28E", "29", "TW"],
  ["CHIHHANG TW-AFB", "RCQS", "None", "46760", "22.48N", "121.10E", "37", "TW"],
  ["LAN YU", "RCLY", "None", "46762", "22.01N", "121.32E", "325", "TW"],
  ["HUALIEN AB", "RCYU", "None", "46763", "24.01N", "121.37E", "16", "TW"],
  ["ILAN", "RCMS", "None", "46764", "24.45N", "121.46E", "9", "TW"],
  ["WUCHIA OBSERVATO", "RCMQ", "None", "46770", "24.16N", "120.37E", "5", "TW"],
  ["CHIA TUNG", "RCFS", "None", "46772", "22.25N", "120.32E", "20", "TW"],
  ["DONGSHA/PRATAS", "RCLM", "None", "46810", "20.40N", "116.43E", "6", "TW"],
  ["FENG NIN TW-AFB", "RCFN", "None", "None", "22.46N", "121.04E", "42", "TW"],
  ["GREEN ISLAND", "RCGI", "None", "None", "22.40N", "121.27E", "8", "TW"],
  ["BAI GAN", "RCMT", "None", "None", "26.13N", "119.59E", "1", "TW"],
  ["NEW TOKYO INTL A", "RJAA", "None", "47686", "35.46N", "140.22E", "44", "JP"],
  ["MATSUMOTO AIRPOR", "RJAF", "None", "47709", "36.10N", "137.55E", "660", "JP"],
  ["HYAKURI (JASDF)", "RJAH", "None", "47715", "36.10N", "140.25E", "35", "JP"],
  ["ICHIKAWA", "RJAI", "None", "None", "35.43N", "139.55E", "31", "JP"],
  ["KASUMIGAURA (JAS", "RJAK", "None", "47716", "36.01N", "140.11E", "29", "JP"],
  ["MINAMITORISHIMA", "RJAM", "None", "47991", "24.18N", "153.58E", "9", "JP"],
  ["CHICHIJIMA ISLAN", "RJAO", "None", "47971", "27.04N", "142.10E", "8", "JP"],
  ["FUJI (JASDF)", "RJAT", "None", "47721", "35.19N", "138.52E", "683", "JP"],
  ["IWOJIMA (JMSDF)", "RJAW", "None", "47981", "24.46N", "141.19E", "116", "JP"],
  ["KANSAI INTL", "RJBB", "None", "47774", "34.25N", "135.15E", "8", "JP"],
  ["NANKISHIRAHAMA A", "RJBD", "None", "47782", "33.40N", "135.22E", "108", "JP"],
  ["KOBE", "RJBE", "UKB", "None", "34.38N", "135.14E", "5", "JP"],
  ["HIROSHIMANISHI", "RJBH", "None", "None", "34.22N", "132.25E", "5", "JP"],
  ["TAJIMA", "RJBT", "None", "None", "35.30N", "134.48E", "210", "JP"],
  ["ASAHIKAWA (JASDF", "RJCA", "None", "47477", "43.47N", "142.22E", "118", "JP"],
  ["OBIHIRO AIRPORT", "RJCB", "None", "47490", "42.43N", "143.13E", "152", "JP"],
  ["CHITOSE (JASDF/C", "RJCC", "None", "47425", "42.46N", "141.40E", "30", "JP"],
  ["HAKODATE AIRPORT", "RJCH", "None", "47488", "41.46N", "140.49E", "36", "JP"],
  ["CHITOSE (JASDF)", "RJCJ", "None", "47434", "42.48N", "141.40E", "27", "JP"],
  ["KUSHIRO AIRPORT", "RJCK", "None", "47489", "43.01N", "144.11E", "98", "JP"],
  ["MEMAMBETSU AIRPO", "RJCM", "None", "47481", "43.53N", "144.10E", "36", "JP"],
  ["NAKASHIBETSU ARP", "RJCN", "None", "47483", "43.34N", "144.58E", "70", "JP"],
  ["SAPPORO (JGSDF/C", "RJCO", "None", "47479", "43.07N", "141.22E", "11", "JP"],
  ["REBUN ISLAND", "RJCR", "None", "None", "45.27N", "141.01E", "27", "JP"],
  ["KUSHIRO/KENEBETS", "RJCS", "None", "47418", "42.58N", "144.24E", "37", "JP"],
  ["TOKACHI (JGSDF)", "RJCT", "None", "None", "42.53N", "143.10E", "84", "JP"],
  ["WAKKANAI AIRPORT", "RJCW", "None", "47441", "45.23N", "141.48E", "11", "JP"],
  ["MURORAN/YAKUMO", "RJCY", "None", "47423", "42.19N", "140.58E", "49", "JP"],
  ["IKI AIRPORT (ISL", "RJDB", "None", "47858", "33.45N", "129.46E", "16", "JP"],
  ["YAMAGUCHI/UBE AR", "RJDC", "None", "47786", "33.55N", "131.16E", "8", "JP"]]

/-- `STATIONS` (database/stations.py 8517-8616). -/
noncomputable def stations85 : List StationRow := rows! [
  ["KAMIGOTO", "RJDK", "None", "None", "33.01N", "129.10E", "20", "JP"],
  ["METABARU (JASDF)", "RJDM", "None", "47860", "33.19N", "130.25E", "19", "JP"],
  ["OJIKA ISLAND", "RJDO", "None", "None", "33.13N", "129.03E", "20", "JP"],
  ["TSUSHIMA AIRPORT", "RJDT", "None", "47799", "34.16N", "129.19E", "66", "JP"],
  ["MONBETSU AIRPORT", "RJEB", "None", "47474", "44.18N", "143.24E", "25", "JP"],
  ["ASAHIKAWA AIRPOR", "RJEC", "None", "47476", "43.40N", "142.26E", "211", "JP"],
  ["OKUSHIRI ISLAND", "RJEO", "None", "None", "42.04N", "139.26E", "36", "JP"],
  ["RISHIRI ISLAND", "RJER", "None", "None", "45.15N", "141.10E", "30", "JP"],
  ["ASHIYA (JASDF)", "RJFA", "None", "47803", "33.52N", "130.39E", "33", "JP"],
  ["YAKUSHIMA ISLAND", "RJFC", "None", "47836", "30.22N", "130.40E", "38", "JP"],
  ["FUKUE AIRPORT", "RJFE", "None", "47844", "32.40N", "128.49E", "80", "JP"],
  ["FUKUOKA/ITAZUKE", "RJFF", "None", "47808", "33.34N", "130.26E", "12", "JP"],
  ["TANEGASHIMA AIRP", "RJFG", "None", "47870", "30.37N", "130.59E", "95", "JP"],
  ["KAGOSHIMA AIRPOR", "RJFK", "None", "47851", "31.48N", "130.43E", "275", "JP"],
  ["MIYAZAKI AIRPORT", "RJFM", "None", "47857", "31.52N", "131.26E", "9", "JP"],
  ["NYUTABARU (JASDF", "RJFN", "None", "47854", "32.04N", "131.26E", "82", "JP"],
  ["OITA AIRPORT", "RJFO", "None", "47852", "33.28N", "131.43E", "8", "JP"],
  ["KITAKYUSHU/KOKUR", "RJFR", "None", "47853", "33.49N", "131.02E", "6", "JP"],
  ["SAGA AIRPORT", "RJFS", "None", "None", "33.09N", "130.18E", "5", "JP"],
  ["KUMAMOTO(CIV/JAS", "RJFT", "None", "47856", "32.49N", "130.50E", "196", "JP"],
  ["NAGASAKI(CIV/JMS", "RJFU", "None", "47855", "32.55N", "129.55E", "5", "JP"],
  ["SASABO NAS", "RJFW", "None", "None", "33.10N", "129.43E", "3", "JP"],
  ["KANOYA (JMSDF)", "RJFY", "None", "47850", "31.22N", "130.49E", "68", "JP"],
  ["TSUIKI (JASDF)", "RJFZ", "None", "47840", "33.40N", "131.03E", "20", "JP"],
  ["NAGOYA/CHUBU", "RJGG", "NGO", "None", "34.52N", "136.48E", "5", "JP"],
  ["AMAMI AIRPORT", "RJKA", "None", "47872", "28.25N", "129.43E", "7", "JP"],
  ["OKINOERABU/OKIER", "RJKB", "None", "47942", "27.25N", "128.41E", "29", "JP"],
  ["KIKAI ISLAND", "RJKI", "None", "None", "28.19N", "129.55E", "6", "JP"],
  ["TOKUNOSHIMA ISLA", "RJKN", "None", "47910", "27.49N", "128.52E", "5", "JP"],
  ["FUKUI AIRPORT", "RJNF", "None", "47706", "36.07N", "136.13E", "8", "JP"],
  ["GIFU (JASDF)", "RJNG", "None", "47634", "35.22N", "136.52E", "42", "JP"],
  ["HAMAMATSU (JASDF", "RJNH", "None", "47681", "34.45N", "137.41E", "48", "JP"],
  ["KOMATSU (CIV/JAS", "RJNK", "None", "47704", "36.22N", "136.25E", "9", "JP"],
  ["NAGOYA (CIV/JASD", "RJNN", "None", "47635", "35.15N", "136.55E", "17", "JP"],
  ["NAGOYA (CIV/JASD", "RJNA", "NKM", "None", "35.15N", "136.55E", "17", "JP"],
  ["OKI AIRPORT", "RJNO", "None", "47739", "36.10N", "133.19E", "95", "JP"],
  ["SHIZOUKA", "RJNS", "None", "None", "34.48N", "138.11E", "135", "JP"],
  ["TOYAMA AIRPORT", "RJNT", "None", "47707", "36.38N", "137.10E", "27", "JP"],
  ["NOTO", "RJNW", "None", "None", "37.18N", "136.58E", "219", "JP"],
  ["SHIZUHAMA (JASDF", "RJNY", "None", "47658", "34.49N", "138.18E", "10", "JP"],
  ["NEW HIROSHIMA", "RJOA", "None", "47789", "34.25N", "132.55E", "6", "JP"],
  ["OKAYAMA AIRPORT", "RJOB", "None", "47793", "34.45N", "133.50E", "242", "JP"],
  ["IZUMO AIRPORT", "RJOC", "None", "47790", "35.25N", "132.52E", "5", "JP"],
  ["AKENO (JASDF)", "RJOE", "None", "47730", "34.31N", "136.40E", "9", "JP"],
  ["HOFU (JASDF)", "RJOF", "None", "47788", "34.01N", "131.33E", "5", "JP"],
  ["MIHO (CIV/JASDF)", "RJOH", "None", "47743", "35.28N", "133.15E", "9", "JP"],
  ["IWAKUNI MCAS", "RJOI", "None", "47764", "34.08N", "132.13E", "2", "JP"],
  ["KOCHI AIRPORT", "RJOK", "None", "47883", "33.31N", "133.40E", "10", "JP"],
  ["MATSUYAMA AIRPOR", "RJOM", "None", "47882", "33.49N", "132.41E", "7", "JP"],
  ["OSAKA INTL/ITAMI", "RJOO", "None", "47771", "34.46N", "135.26E", "15", "JP"],
  ["KOMATSUJIMA (JAS", "RJOP", "None", "47884", "34.00N", "134.37E", "6", "JP"],
  ["TOTTORI AIRPORT", "RJOR", "None", "47794", "35.31N", "134.10E", "18", "JP"],
  ["TOKUSHIMA(JMSDF/", "RJOS", "None", "47881", "34.07N", "134.37E", "11", "JP"],
  ["TAKAMATSU AIRPOR", "RJOT", "None", "47880", "34.13N", "134.01E", "188", "JP"],
  ["IWAMI", "RJOW", "None", "47783", "34.40N", "131.48E", "54", "JP"],
  ["YAO (CIV/JGSDF)", "RJOY", "None", "47779", "34.36N", "135.35E", "13", "JP"],
  ["OZUKI (JMSDF)", "RJOZ", "None", "47787", "34.02N", "131.03E", "7", "JP"],
  ["AOMORI AIRPORT", "RJSA", "None", "47542", "40.43N", "140.41E", "201", "JP"],
  ["YAMAGATA(CIV/JGS", "RJSC", "None", "47553", "38.25N", "140.22E", "108", "JP"],
  ["SADO AIRPORT", "RJSD", "None", "47700", "38.02N", "138.25E", "26", "JP"],
  ["FUKUSHIMA ARPT", "RJSF", "None", "47557", "37.13N", "140.25E", "375", "JP"],
  ["HACHINOHE (JMSDF", "RJSH", "None", "47515", "40.32N", "141.28E", "49", "JP"],
  ["HANAMAKI AIRPORT", "RJSI", "None", "47549", "39.25N", "141.07E", "93", "JP"],
  ["AKITA AIRPORT", "RJSK", "None", "47545", "39.37N", "140.13E", "96", "JP"],
  ["MISAWA(JASDF/AF/", "RJSM", "None", "47580", "40.42N", "141.22E", "36", "JP"],
  ["NIIGATA (CIV/JAS", "RJSN", "None", "47573", "37.57N", "139.07E", "4", "JP"],
  ["OMINATO (JASDF)", "RJSO", "None", "47516", "41.13N", "141.07E", "10", "JP"],
  ["ODATE-NOSHIRO", "RJSR", "None", "None", "40.11N", "140.22E", "87", "JP"],
  ["SENDAI AIRPORT", "RJSS", "None", "47569", "38.07N", "140.55E", "5", "JP"],
  ["MATSUSHIMA (JASD", "RJST", "None", "47591", "38.23N", "141.13E", "5", "JP"],
  ["KASUMINOME (JASD", "RJSU", "None", "47567", "38.13N", "140.55E", "10", "JP"],
  ["SHONAI", "RJSY", "None", "None", "38.49N", "139.46E", "22", "JP"],
  ["ATSUGI NAS (JMSD", "RJTA", "None", "47679", "35.27N", "139.26E", "65", "JP"],
  ["TACHIKAWA (JASDF", "RJTC", "None", "47660", "35.42N", "139.24E", "98", "JP"],
  ["TOKYO JMA", "RJTD", "None", "47662", "35.41N", "139.46E", "36", "JP"],
  ["TATEYAMA (JMSDF)", "RJTE", "None", "47688", "34.58N", "139.49E", "6", "JP"],
  ["CHOFU AIRPORT", "RJTF", "None", "47683", "35.40N", "139.31E", "44", "JP"],
  ["HACHIJOJIMA ISLA", "RJTH", "None", "47738", "33.07N", "139.46E", "95", "JP"],
  ["TOKYO HELIPORT", "RJTI", "None", "47687", "35.38N", "139.50E", "8", "JP"],
  ["IRUMA (JASDF)", "RJTJ", "None", "47643", "35.49N", "139.25E", "93", "JP"],
  ["KISARAZU (JGSDF)", "RJTK", "None", "47661", "35.23N", "139.55E", "6", "JP"],
  ["SHIMOFUSA (JMSDF", "RJTL", "None", "47727", "35.47N", "140.01E", "33", "JP"],
  ["OSHIMA AIRPORT", "RJTO", "None", "47735", "34.46N", "139.22E", "41", "JP"],
  ["MIYAKEJIMA AIRPO", "RJTQ", "None", "47737", "34.04N", "139.34E", "23", "JP"],
  ["KASTNER AAF/ZAMA", "RJTR", "None", "47680", "35.31N", "139.24E", "109", "JP"],
  ["TOKYO INTL AIRPO", "RJTT", "None", "47671", "35.32N", "139.46E", "8", "JP"],
  ["UTSUNOMIYA (JGSD", "RJTU", "None", "47692", "36.31N", "139.52E", "105", "JP"],
  ["YOKOSUKA FWF", "RJTX", "None", "47696", "35.18N", "139.41E", "5", "JP"],
  ["YOKOTA (JASDF/US", "RJTY", "None", "47642", "35.45N", "139.20E", "139", "JP"],
  ["NAHA (CIV/JASDF)", "ROAH", "None", "47930", "26.10N", "127.39E", "8", "JP"],
  ["IEJIMA AUX (USAF", "RODE", "None", "47938", "26.43N", "127.46E", "73", "JP"],
  ["KADENA (USAFB-NA", "RODN", "None", "47931", "26.21N", "127.46E", "45", "JP"],
  ["HAMBY AAF/BUCKNE", "ROHF", "None", "47935", "26.18N", "127.46E", "6", "JP"],
  ["ISHIGAKIJIMA ISL", "ROIG", "None", "47918", "24.19N", "124.10E", "7", "JP"],
  ["KUMEJIMA ISLAND", "ROKJ", "None", "47929", "26.19N", "126.47E", "5", "JP"],
  ["MINAMIDAITOJIMA", "ROMD", "None", "47945", "25.49N", "131.13E", "15", "JP"],
  ["MIYAKOJIMA ISLAN", "ROMY", "None", "47927", "24.46N", "125.16E", "41", "JP"],
  ["AGUNI ISLAND", "RORA", "None", "None", "26.36N", "127.13E", "29", "JP"],
  ["HATERUMA", "RORH", "None", "None", "24.04N", "123.47E", "13", "JP"],
  ["KITADAITO ISLAND", "RORK", "None", "None", "25.55N", "131.19E", "22", "JP"]]

/-- `STATIONS` (database/stations.py 8617-8716). -/
noncomputable def stations86 : List StationRow := rows! [
  ["SHIMOJI-SHIMA IS", "RORS", "None", "None", "24.49N", "125.09E", "16", "JP"],
  ["TARAMA ISLAND", "RORT", "None", "None", "24.38N", "124.42E", "9", "JP"],
  ["YORON ISLAND", "RORY", "None", "None", "27.03N", "128.24E", "16", "JP"],
  ["FUTENMA(US-MCAS)", "ROTM", "None", "47933", "26.16N", "127.45E", "75", "JP"],
  ["YONAGUNI AIRPORT", "ROYN", "None", "47911", "24.28N", "122.58E", "17", "JP"],
  ["TAKAO RADAR", "TAKA", "None", "None", "35.34N", "133.13E", "15", "JP"],
  ["MUAN INTL", "RKJB", "None", "None", "34.59N", "126.23E", "2", "KR"],
  ["GWANGJU (KOR-AFB", "RKJJ", "None", "47158", "35.07N", "126.49E", "13", "KR"],
  ["KUNSAN (US/KOR-A", "RKJK", "None", "47141", "35.54N", "126.37E", "9", "KR"],
  ["MOKPO (KOR-NAVY)", "RKJM", "None", "None", "34.46N", "126.22E", "3", "KR"],
  ["JHUNJU (KOR-ARMY", "RKJU", "None", "None", "35.52N", "127.07E", "29", "KR"],
  ["YOSU AIRPORT", "RKJY", "None", "47167", "34.49N", "127.37E", "18", "KR"],
  ["CAMP PAGE/CHUNCH", "RKNC", "None", "47104", "37.52N", "127.43E", "75", "KR"],
  ["SOKCHO AIRPORT", "RKND", "None", "47091", "38.07N", "128.35E", "14", "KR"],
  ["WHANG RYEONG", "RKNF", "None", "None", "37.45N", "128.40E", "1407", "KR"],
  ["HOENGSONG (KOR-A", "RKNH", "None", "47118", "37.25N", "127.57E", "101", "KR"],
  ["KANGNUNG (KOR-AF", "RKNN", "None", "47107", "37.45N", "128.56E", "11", "KR"],
  ["KEO JIN", "RKNO", "None", "None", "38.28N", "128.28E", "107", "KR"],
  ["KOTAR RANGE", "RKNR", "None", "None", "37.06N", "128.54E", "792", "KR"],
  ["WONJU", "RKNW", "None", "47114", "37.19N", "127.57E", "150", "KR"],
  ["YANGYANG INTL", "RKNY", "None", "None", "38.04N", "128.40E", "74", "KR"],
  ["JEJU INTL AIRPO", "RKPC", "None", "47182", "33.30N", "126.29E", "27", "KR"],
  ["JINHAE (KOR-ARM", "RKPE", "None", "None", "35.08N", "128.41E", "2", "KR"],
  ["BUSAN/KIMHAE INT", "RKPK", "None", "47153", "35.10N", "128.55E", "15", "KR"],
  ["MOSULPO (KOR-AFB", "RKPM", "None", "47187", "33.12N", "126.16E", "27", "KR"],
  ["SACHON (KOR-AFB)", "RKPS", "None", "47161", "35.04N", "128.04E", "8", "KR"],
  ["ULSAN", "RKPU", "None", "47152", "35.32N", "129.19E", "33", "KR"],
  ["DONGHAE RADAR", "RKSB", "None", "47106", "37.30N", "129.08E", "37", "KR"],
  ["SV RI SAN", "RKSC", "None", "None", "37.21N", "126.55E", "406", "KR"],
  ["MAESANRI", "RKSD", "None", "None", "37.21N", "127.16E", "144", "KR"],
  ["PAENGNYONGDO BEA", "RKSE", "None", "None", "37.57N", "124.43E", "2", "KR"],
  ["SEOUL (KOR-AF HQ", "RKSF", "None", "47117", "37.30N", "126.55E", "49", "KR"],
  ["PYONGTAEK (A-511", "RKSG", "None", "47127", "36.58N", "127.01E", "16", "KR"],
  ["COMMAND POST TAN", "RKSH", "None", "None", "37.31N", "126.58E", "73", "KR"],
  ["CHAJANG NI", "RKSI", "None", "None", "37.28N", "126.27E", "7", "KR"],
  ["TAESONG-SAN", "RKSJ", "None", "None", "38.12N", "127.32E", "1182", "KR"],
  ["SEOUL CITY", "RKSL", "None", "47108", "37.34N", "126.58E", "87", "KR"],
  ["SEOUL EAST(KOR-A", "RKSM", "None", "47111", "37.25N", "127.07E", "20", "KR"],
  ["KOON-NI RANGE", "RKSN", "None", "69010", "37.01N", "126.45E", "15", "KR"],
  ["OSAN (US/KOR-AFB", "RKSO", "None", "47122", "37.04N", "127.01E", "12", "KR"],
  ["PAENGNYONGDO (KA", "RKSP", "None", "47103", "37.58N", "124.40E", "171", "KR"],
  ["YEONPYEUNGDO", "RKSQ", "None", "None", "37.42N", "125.42E", "91", "KR"],
  ["SEOUL/KIMPO INTL", "RKSS", "None", "47110", "37.32N", "126.47E", "19", "KR"],
  ["CAMP CASEY/TONGD", "RKST", "None", "None", "37.55N", "127.03E", "60", "KR"],
  ["YEOJU RANGE", "RKSU", "None", "None", "37.25N", "127.37E", "43", "KR"],
  ["PYORIPSAN", "RKSV", "None", "None", "37.46N", "126.22E", "250", "KR"],
  ["SUWON (US/KOR-AF", "RKSW", "None", "47120", "37.15N", "127.00E", "24", "KR"],
  ["CAMP STANLEY/H-2", "RKSX", "None", "None", "37.43N", "127.05E", "71", "KR"],
  ["YONGSAN/H-208 HP", "RKSY", "None", "None", "37.31N", "126.58E", "12", "KR"],
  ["ANDONG", "RKTA", "None", "47136", "36.32N", "128.43E", "142", "KR"],
  ["PAEKADO", "RKTB", "None", "None", "37.01N", "126.02E", "46", "KR"],
  ["TAEJON (KOR-AFB)", "RKTD", "None", "47132", "36.32N", "126.20E", "63", "KR"],
  ["SONGMU (KOR-AFB)", "RKTE", "None", "47124", "36.23N", "127.30E", "79", "KR"],
  ["TAEJON", "RKTF", "None", "47133", "36.17N", "127.24E", "78", "KR"],
  ["CAMP WALKER (H-8", "RKTG", "None", "None", "35.51N", "128.36E", "75", "KR"],
  ["POHANG (KOR-NAVY", "RKTH", "None", "47139", "35.58N", "129.25E", "20", "KR"],
  ["JUNG WON (ROK-AB", "RKTI", "None", "47125", "37.01N", "127.52E", "91", "KR"],
  ["ULJIN", "RKTL", "None", "None", "36.59N", "129.24E", "49", "KR"],
  ["MANGILSAN (KOR-A", "RKTM", "None", "47126", "36.56N", "126.27E", "302", "KR"],
  ["TAEGU (US/KOR-AF", "RKTN", "None", "47142", "35.53N", "128.39E", "35", "KR"],
  ["SANGJU", "RKTS", "None", "None", "36.25N", "128.10E", "150", "KR"],
  ["TAEGU ACC (KOR-A", "RKTT", "None", "47143", "35.52N", "128.37E", "61", "KR"],
  ["JONGJU (KAFB-AR", "RKTU", "None", "47128", "36.42N", "127.30E", "66", "KR"],
  ["JUNGJU", "RKTV", "None", "None", "37.04N", "127.52E", "59", "KR"],
  ["WOONG CHEON", "RKTW", "None", "None", "36.12N", "126.32E", "13", "KR"],
  ["YECHON (KOR-AFB)", "RKTY", "None", "47134", "36.37N", "128.20E", "108", "KR"],
  ["HAEMI", "RKTZ", "None", "None", "36.23N", "126.20E", "31", "KR"],
  ["NIGHTMARE RANGE", "RKXX", "None", "None", "38.04N", "127.20E", "0", "KR"],
  ["YANGGU (G-404)", "RK13", "None", "None", "38.05N", "127.59E", "200", "KR"],
  ["OLONGAPO/SUBIC", "RPLB", "None", "98426", "14.48N", "120.16E", "17", "PH"],
  ["ANGELES/PAMPANGA", "RPLC", "None", "98327", "15.10N", "120.35E", "196", "PH"],
  ["LAOAG INTL(PH-AR", "RPLI", "None", "98223", "18.10N", "120.31E", "5", "PH"],
  ["NINOY AQUINO INT", "RPLL", "None", "98429", "14.31N", "121.00E", "21", "PH"],
  ["DAVAO/FRANCISCO", "RPMD", "None", "98753", "07.07N", "125.39E", "18", "PH"],
  ["CLARK AFB/LUZON", "RPMK", "None", "None", "15.10N", "120.32E", "196", "PH"],
  ["CAGAYAN DE ORO", "RPML", "CGY", "None", "08.26N", "124.37E", "186", "PH"],
  ["LEGAZPI/LUZON IS", "RPMP", "None", "98444", "13.09N", "123.44E", "17", "PH"],
  ["ROMBLON/TABLAS I", "RPMR", "None", "98536", "12.34N", "122.16E", "47", "PH"],
  ["SANGLEY POINT AB", "RPMS", "None", "98428", "14.30N", "120.55E", "4", "PH"],
  ["ZAMBOANGA (CIV/A", "RPMZ", "None", "98836", "06.55N", "122.04E", "6", "PH"],
  ["APARRI/LUZON ISL", "RPUA", "None", "98232", "18.22N", "121.37E", "3", "PH"],
  ["BAGUIO/LUZON ISL", "RPUB", "None", "98328", "16.23N", "120.37E", "1296", "PH"],
  ["DAET/LUZON ISLAN", "RPUD", "None", "98440", "14.07N", "122.58E", "4", "PH"],
  ["SAN JOSE/MINDORO", "RPUH", "None", "98531", "12.20N", "121.01E", "3", "PH"],
  ["IBA/LUZON ISLAND", "RPUI", "None", "98324", "15.19N", "119.58E", "5", "PH"],
  ["CALAPAN/MINDORO", "RPUK", "None", "98431", "13.25N", "121.10E", "41", "PH"],
  ["MAMBURAO/MINDORO", "RPUM", "None", "None", "13.13N", "120.35E", "4", "PH"],
  ["NAGA/LUZON ISLAN", "RPUN", "None", "None", "13.34N", "123.16E", "43", "PH"],
  ["BASCO/BATAN ISLA", "RPUO", "None", "98135", "20.26N", "121.58E", "11", "PH"],
  ["VIGAN/LUZON ISLA", "RPUQ", "None", "98222", "17.54N", "120.28E", "33", "PH"],
  ["BALER/LUZON ISLA", "RPUR", "None", "98333", "15.46N", "121.34E", "6", "PH"],
  ["TUGUEGARAO/LUZON", "RPUT", "None", "98233", "17.37N", "121.43E", "62", "PH"],
  ["VIRAC/CATANDUANE", "RPUV", "None", "98446", "13.34N", "124.13E", "40", "PH"],
  ["MARINDUQUE ISLAN", "RPUW", "None", "None", "13.22N", "121.49E", "5", "PH"],
  ["TACLOBAN/LEYTE I", "RPVA", "None", "98550", "11.15N", "125.00E", "3", "PH"],
  ["BACOLOD/NEGROS I", "RPVB", "None", "None", "10.39N", "122.55E", "9", "PH"],
  ["CALBAYOG/SAMAR I", "RPVC", "None", "None", "12.04N", "124.32E", "3", "PH"],
  ["DUMAGUETE/NEGROS", "RPVD", "None", "98642", "09.20N", "123.18E", "8", "PH"],
  ["CATARMAN/SAMAR I", "RPVF", "None", "98546", "12.28N", "124.37E", "5", "PH"],
  ["GUIUAN/SAMAR ISL", "RPVG", "None", "98558", "11.01N", "125.43E", "60", "PH"]]

/-- `STATIONS` (database/stations.py 8717-8816). -/
noncomputable def stations87 : List StationRow := rows! [
  ["ILOILO/PANAY ISL", "RPVI", "None", "98637", "10.41N", "122.34E", "8", "PH"],
  ["MASBATE", "RPVJ", "None", "98543", "12.22N", "123.38E", "6", "PH"],
  ["KALIBO/PANAY ISL", "RPVK", "None", "None", "11.40N", "122.22E", "6", "PH"],
  ["MACTAN-CEBU", "RPVM", "None", "98646", "10.19N", "123.59E", "10", "PH"],
  ["PUERTO PRINCESA", "RPVP", "None", "98618", "09.45N", "118.43E", "16", "PH"],
  ["ROXAS/PANAY ISLA", "RPVR", "None", "98538", "11.34N", "122.45E", "4", "PH"],
  ["TAGBILARAN/BOHOL", "RPVT", "None", "98644", "09.35N", "123.50E", "8", "PH"],
  ["GENERAL SANTOS", "RPWB", "None", "98851", "06.07N", "125.10E", "15", "PH"],
  ["COTABATO/MINDANA", "RPWC", "None", "98746", "07.10N", "124.13E", "58", "PH"],
  ["BUTUAN/MINDANAO", "RPWE", "None", "98752", "08.57N", "125.29E", "46", "PH"],
  ["DIPOLOG/MINDANAO", "RPWG", "None", "98741", "08.35N", "123.20E", "5", "PH"],
  ["OZAMIS/MINDANAO", "RPWI", "None", "None", "08.10N", "123.50E", "5", "PH"],
  ["JOLO ISLAND", "RPWJ", "None", "98830", "06.02N", "121.00E", "13", "PH"],
  ["CAGAYAN DE ORO", "RPWL", "None", "98748", "08.28N", "124.37E", "6", "PH"],
  ["MALABANG/MINDANA", "RPWM", "None", "None", "07.37N", "124.04E", "8", "PH"],
  ["PAGADIAN/MINDANA", "RPWP", "None", "None", "07.49N", "123.28E", "2", "PH"],
  ["SURIGAO/MINDANAO", "RPWS", "None", "98653", "09.48N", "125.30E", "55", "PH"],
  ["TANDAG/MINDANAO", "RPWW", "None", "None", "09.04N", "126.10E", "5", "PH"],
  ["ILIGAN/MINDANAO", "RPWX", "None", "None", "08.09N", "124.13E", "396", "PH"],
  ["MALAYBALAY/MINDA", "RPWY", "None", "98751", "08.09N", "125.04E", "627", "PH"],
  ["BISLIG/MINDANAO", "RPWZ", "None", "None", "08.13N", "126.19E", "3", "PH"],
  ["CROW VALLEY GNRY", "RPXC", "None", "98322", "15.19N", "120.22E", "161", "PH"],
  ["ALABAT ISLAND", "RPXT", "None", "98435", "14.14N", "121.56E", "5", "PH"],
  ["MACTAN INTL(CIV/", "RPMT", "None", "None", "10.19N", "123.59E", "24", "PH"],
  ["AHMADABAD", "VAAH", "None", "42647", "23.04N", "072.37E", "55", "IN"],
  ["AKOLA AIRPORT", "VAAK", "None", "42934", "20.41N", "077.04E", "309", "IN"],
  ["AURANGABAD AIRPO", "VAAU", "None", "43014", "19.51N", "075.24E", "579", "IN"],
  ["BOMBAY/SANTACRUZ", "VABB", "None", "43003", "19.06N", "072.52E", "8", "IN"],
  ["BILASPUR", "VABI", "None", "42080", "31.15N", "076.40E", "587", "IN"],
  ["BHUJ-RUDRAMATA(A", "VABJ", "None", "42634", "23.17N", "069.40E", "80", "IN"],
  ["BELGAUM/SAMBRA", "VABM", "None", "43198", "15.50N", "074.37E", "747", "IN"],
  ["VADODARA", "VABO", "None", "None", "22.20N", "073.14E", "39", "IN"],
  ["BHOPAL/BAIRAGARH", "VABP", "None", "42667", "23.16N", "077.20E", "523", "IN"],
  ["BHAUNAGAR", "VABV", "None", "42838", "21.45N", "072.12E", "11", "IN"],
  ["GOA/DABOLIM (NAV", "VAGO", "None", "None", "15.22N", "073.49E", "52", "IN"],
  ["GOA/DABOLIM (NAV", "VOGO", "None", "43194", "15.22N", "073.49E", "52", "IN"],
  ["INDORE", "VAID", "None", "42754", "22.43N", "075.47E", "567", "IN"],
  ["JABALPUR", "VAJB", "None", "42675", "23.11N", "079.57E", "393", "IN"],
  ["BOMBAY/JUHU", "VAJJ", "None", "43002", "19.07N", "072.49E", "4", "IN"],
  ["JAMNAGAR (IN-AFB", "VAJM", "None", "42734", "22.26N", "070.04E", "20", "IN"],
  ["KHAJURAHO", "VAKJ", "None", "None", "24.49N", "079.55E", "222", "IN"],
  ["KHANDWA", "VAKD", "None", "42855", "21.49N", "076.22E", "318", "IN"],
  ["KANDLA AERODROME", "VAKE", "None", "42638", "23.08N", "070.07E", "35", "IN"],
  ["KOLHAPUR", "VAKP", "None", "43157", "16.41N", "074.13E", "570", "IN"],
  ["NAGPUR SONEGAON", "VANP", "None", "42867", "21.05N", "079.03E", "310", "IN"],
  ["PUNE/POONA (IN-A", "VAPO", "None", "43064", "18.34N", "073.55E", "593", "IN"],
  ["PORBANDAR", "VAPR", "None", "42830", "21.38N", "069.40E", "7", "IN"],
  ["RAJKOT", "VARK", "None", "42737", "22.18N", "070.46E", "138", "IN"],
  ["RAIPUR", "VARP", "None", "42875", "21.13N", "081.39E", "298", "IN"],
  ["SHOLAPUR", "VASL", "None", "43117", "17.40N", "075.54E", "479", "IN"],
  ["MAHARANA PRATAP", "VAUD", "None", "None", "24.37N", "073.54E", "513", "IN"],
  ["AGARTALA", "VEAT", "None", "42724", "23.52N", "091.15E", "16", "IN"],
  ["BAGHDOGRA (IN-AF", "VEBD", "None", "42398", "26.41N", "088.20E", "126", "IN"],
  ["BHUBANESWAR", "VEBS", "None", "42971", "20.15N", "085.49E", "46", "IN"],
  ["VARANASI", "VEBN", "None", "None", "25.27N", "082.51E", "83", "IN"],
  ["CALCUTTA/DUM DUM", "VECC", "None", "42809", "22.39N", "088.26E", "6", "IN"],
  ["CAR NICOBAR(IN-A", "VECX", "None", "43368", "09.09N", "092.49E", "14", "IN"],
  ["GORAKHPUR (IN-AF", "VEGK", "None", "42379", "26.45N", "083.22E", "77", "IN"],
  ["GAUHATI (IN-AFB)", "VEGT", "None", "42410", "26.06N", "091.35E", "54", "IN"],
  ["GAYA", "VEGY", "None", "42591", "24.45N", "084.57E", "116", "IN"],
  ["IMPHAL/TULIHAL", "VEIM", "None", "42623", "24.46N", "093.54E", "781", "IN"],
  ["JHARSUGUDA", "VEJH", "None", "42886", "21.55N", "084.04E", "230", "IN"],
  ["JAMSHEDPUR(PRIVA", "VEJS", "None", "42798", "22.49N", "086.10E", "142", "IN"],
  ["NORTH LAKHIMPUR/", "VELR", "None", "42309", "27.18N", "094.06E", "101", "IN"],
  ["MALDA", "VEMH", "None", "42503", "25.01N", "088.07E", "31", "IN"],
  ["DIBRUGARH/MOHANB", "VEMN", "None", "42314", "27.28N", "095.01E", "111", "IN"],
  ["PORT BLAIR", "VEPB", "None", "43333", "11.40N", "092.43E", "79", "IN"],
  ["PATNA", "VEPT", "None", "42492", "25.36N", "085.05E", "60", "IN"],
  ["RANCHI", "VERC", "None", "42701", "23.19N", "085.19E", "652", "IN"],
  ["ROURKELA (PRIVAT", "VERK", "None", "42793", "22.13N", "084.52E", "196", "IN"],
  ["RAXAUL", "VERL", "None", "42382", "26.58N", "084.50E", "79", "IN"],
  ["AGRA (IN-AFB)", "VIAG", "None", "42260", "27.08N", "077.58E", "169", "IN"],
  ["ALIGARH", "VIAH", "None", "42262", "27.52N", "078.04E", "187", "IN"],
  ["ALLAHABAD (IN-AF", "VIAL", "None", "42475", "25.26N", "081.43E", "98", "IN"],
  ["AMRITSAR", "VIAR", "None", "42071", "31.42N", "074.48E", "234", "IN"],
  ["VARANASI/BABATPU", "VIBN", "None", "42479", "25.26N", "082.52E", "85", "IN"],
  ["BHATINDA", "VIBT", "None", "42097", "30.10N", "074.34E", "211", "IN"],
  ["BAREILLY (IN-AFB", "VIBY", "None", "42189", "28.22N", "079.24E", "173", "IN"],
  ["KANPUR/CHAKERI(A", "VICX", "None", "42367", "26.23N", "080.24E", "126", "IN"],
  ["DELHI/SAFDARJUNG", "VIDD", "None", "42182", "28.35N", "077.13E", "216", "IN"],
  ["INDIRA GANDHI/DE", "VIDP", "None", "42181", "28.34N", "077.07E", "233", "IN"],
  ["GWALIOR (IN-AFB)", "VIGR", "None", "42361", "26.13N", "078.15E", "207", "IN"],
  ["HISSAR", "VIHR", "None", "42131", "29.10N", "075.43E", "221", "IN"],
  ["JHANSI", "VIJN", "None", "42463", "25.26N", "078.34E", "251", "IN"],
  ["JODHPUR (IN-AFB)", "VIJO", "None", "42339", "26.18N", "073.01E", "224", "IN"],
  ["JAIPUR/SANGANER", "VIJP", "None", "42348", "26.49N", "075.47E", "390", "IN"],
  ["KANPUR", "VIKA", "None", "42366", "26.25N", "080.22E", "126", "IN"],
  ["KOTA AERODROME", "VIKO", "None", "42452", "25.08N", "075.50E", "274", "IN"],
  ["LUCKNOW/AMAUSI", "VILK", "None", "42369", "26.45N", "080.52E", "128", "IN"],
  ["SRINAGAR (CIV/MI", "VISR", "None", "42042", "33.58N", "074.46E", "1666", "IN"],
  ["SATNA", "VIST", "None", "42571", "24.34N", "080.49E", "317", "IN"],
  ["UDAIPUR/DABOK", "VIUD", "None", "42542", "24.37N", "073.52E", "514", "IN"],
  ["BANGALORE ARP", "VOBG", "None", "43296", "12.57N", "077.38E", "897", "IN"],
  ["BELLARY", "VOBI", "None", "43205", "15.09N", "076.50E", "449", "IN"],
  ["BENGALURU", "VOBL", "None", "None", "13.12N", "077.42E", "915", "IN"],
  ["BELGAUM", "VOBM", "None", "None", "15.52N", "074.37E", "758", "IN"],
  ["VIJAYAWADA/GANNA", "VOBZ", "None", "43181", "16.31N", "080.47E", "24", "IN"],
  ["COIMBATORE/PEELA", "VOCB", "None", "43321", "11.01N", "077.02E", "399", "IN"],
  ["COCHIN (IN-NAVY)", "VOCC", "None", "43353", "09.56N", "076.16E", "3", "IN"],
  ["COCHIN INTL", "VOCI", "None", "None", "10.09N", "076.24E", "8", "IN"]]

/-- `STATIONS` (database/stations.py 8817-8916). -/
noncomputable def stations88 : List StationRow := rows! [
  ["CALICUT", "VOCL", "None", "None", "11.08N", "075.57E", "104", "IN"],
  ["CUDDAPAH", "VOCP", "None", "43241", "14.28N", "078.49E", "130", "IN"],
  ["RAJIV GANDHI INL", "VOHS", "None", "None", "17.14N", "078.26E", "1", "IN"],
  ["HYDERABAD (CIV/M", "VOHY", "None", "43128", "17.27N", "078.27E", "545", "IN"],
  ["MADURAI", "VOMD", "None", "43360", "09.49N", "078.04E", "131", "IN"],
  ["MANGALORE/BAJPE", "VOML", "None", "43284", "12.58N", "074.53E", "103", "IN"],
  ["MADRAS/CHENNAI", "VOMM", "None", "43279", "13.00N", "080.10E", "16", "IN"],
  ["MYSORE", "VOMY", "None", "43291", "12.18N", "076.42E", "767", "IN"],
  ["TIRUPATI", "VOTP", "None", "None", "13.38N", "079.33E", "107", "IN"],
  ["TIRUCHCHIRAPALLI", "VOTR", "None", "43344", "10.46N", "078.43E", "88", "IN"],
  ["THIRUVANANTHAPUR", "VOTV", "None", "43372", "08.28N", "076.57E", "8", "IN"],
  ["VELLORE", "VOVR", "None", "43303", "12.55N", "079.09E", "214", "IN"],
  ["VISAKHAPATNAM", "VOVZ", "None", "None", "17.43N", "083.13E", "5", "IN"],
  ["BHAMO", "VBBM", "None", "48019", "24.16N", "097.12E", "113", "MM"],
  ["PATHEIN/BASSEIN", "VBBS", "None", "48094", "16.46N", "094.46E", "10", "MM"],
  ["COCO ISLAND", "VBCI", "None", "48109", "14.07N", "093.22E", "3", "MM"],
  ["HOMALIN", "VBHL", "None", "48010", "24.52N", "094.55E", "131", "MM"],
  ["KENGTUNG", "VBKG", "None", "48060", "21.18N", "099.37E", "828", "MM"],
  ["KYAUKPYU/RAMREE", "VBKP", "None", "48071", "19.25N", "093.32E", "5", "MM"],
  ["LASHIO", "VBLS", "None", "48035", "22.55N", "097.45E", "749", "MM"],
  ["MYITKYINA", "VBMK", "None", "48008", "25.22N", "097.24E", "147", "MM"],
  ["MEIKTILA", "VBML", "None", "48053", "20.49N", "095.49E", "220", "MM"],
  ["MOULMEIN", "VBMM", "None", "48103", "16.30N", "097.37E", "22", "MM"],
  ["MONGHSAT", "VBMS", "None", "48070", "20.33N", "099.16E", "572", "MM"],
  ["NYAUNG-U/PAGAN", "VBNU", "None", "48048", "21.11N", "094.55E", "55", "MM"],
  ["HPA-AN/PA-AN", "VBPA", "None", "48099", "16.45N", "097.40E", "10", "MM"],
  ["BAGO/PEGU", "VBPG", "None", "48093", "17.19N", "096.30E", "15", "MM"],
  ["PROME/PYE", "VBPR", "None", "48077", "18.48N", "095.13E", "60", "MM"],
  ["PUTAO", "VBPT", "None", "48001", "27.19N", "097.25E", "409", "MM"],
  ["AKYAB", "VBRA", "None", "None", "20.07N", "092.52E", "5", "MM"],
  ["SITTWE/AKYAB", "VYSW", "None", "48062", "20.07N", "092.52E", "5", "MM"],
  ["MANDALAY", "VBRM", "None", "48042", "21.58N", "096.05E", "76", "MM"],
  ["MERGUI", "VBRN", "None", "48110", "12.25N", "098.35E", "37", "MM"],
  ["RANGOON/MINGALAD", "VBRR", "None", "48096", "16.53N", "096.10E", "29", "MM"],
  ["SANDOWAY/MAZIN", "VBSY", "None", "48080", "18.28N", "094.20E", "11", "MM"],
  ["DAWEI", "VBTV", "None", "48108", "14.05N", "098.13E", "17", "MM"],
  ["YE", "VBYE", "None", "48107", "15.15N", "097.52E", "7", "MM"],
  ["MANDALAY", "VYMD", "None", "None", "21.42N", "095.59E", "91", "MM"],
  ["COLOMBO/KATUNAYA", "VCBI", "None", "43450", "07.10N", "079.52E", "8", "LK"],
  ["ANURADHAPURA (AF", "VCCA", "None", "43421", "08.19N", "080.25E", "89", "LK"],
  ["BATTICALOA (AFB)", "VCCB", "None", "43436", "07.43N", "081.42E", "12", "LK"],
  ["COLOMBO/RATMALAN", "VCCC", "None", "43467", "06.49N", "079.52E", "5", "LK"],
  ["TRINCOMALEE (AFB", "VCCT", "None", "43418", "08.34N", "081.15E", "7", "LK"],
  ["MATTALA RAJAPAKS", "VCRI", "None", "43407", "06.17N", "081.08E", "7", "LK"],
  ["BATTAMBANG", "VDGB", "None", "48962", "13.05N", "103.12E", "13", "KH"],
  ["KOMPONG-CHAM", "VDKC", "None", "48995", "12.00N", "105.27E", "16", "KH"],
  ["KAMPONG CHHNANG", "VDKH", "None", "48969", "12.15N", "104.40E", "15", "KH"],
  ["PHNOM-PENH/POCHE", "VDPP", "None", "48991", "11.33N", "104.50E", "10", "KH"],
  ["SIEMREAP", "VDSR", "None", "48966", "13.25N", "103.50E", "15", "KH"],
  ["STUNG TRENG", "VDST", "None", "48972", "13.31N", "105.58E", "56", "KH"],
  ["BOGRA", "VGBG", "None", "41883", "24.51N", "089.22E", "20", "BD"],
  ["COX'S BAZAR", "VGCB", "None", "41992", "21.25N", "091.58E", "4", "BD"],
  ["COMILLA", "VGCM", "None", "41933", "23.25N", "091.10E", "10", "BD"],
  ["CHITTAGONG (CV/M", "VGEG", "None", "41978", "22.16N", "091.49E", "6", "BD"],
  ["DHAKA", "VGHS", "None", "41922", "23.51N", "090.24E", "10", "BD"],
  ["ISHURDI", "VGIS", "None", "41907", "24.07N", "089.02E", "14", "BD"],
  ["JESSORE (CIV/MIL", "VGJR", "None", "41936", "23.10N", "089.10E", "7", "BD"],
  ["RAJSHAHI", "VGRJ", "None", "41895", "24.22N", "088.42E", "20", "BD"],
  ["THAKURGAON", "VGSG", "None", "41852", "26.01N", "088.24E", "54", "BD"],
  ["SYLHET OSMANI", "VGSY", "None", "41891", "24.58N", "091.52E", "16", "BD"],
  ["DHAKA/TEJGAON (M", "VGTJ", "None", "41923", "23.46N", "090.22E", "9", "BD"],
  ["KURMITOLA/ZIA IN", "VGZR", "None", "None", "23.51N", "090.24E", "10", "BD"],
  ["CHEUNG CHAU", "VHCH", "None", "45001", "22.11N", "114.01E", "79", "HK"],
  ["HONG KONG INTL", "VHHH", "None", "45007", "22.19N", "113.55E", "9", "HK"],
  ["HONG KONG RO", "HKRO", "None", "45004", "22.19N", "114.10E", "66", "HK"],
  ["H KONG OLD VHHH", "None", "None", "None", "22.20N", "114.11E", "24", "HK"],
  ["ATTOPEU", "VLAP", "None", "48957", "14.48N", "106.49E", "105", "LA"],
  ["BAN HOUAYXAY/BAN", "VLHS", "None", "None", "20.15N", "100.25E", "421", "LA"],
  ["PAKSE (CIV/MIL)", "VLIP", "None", "48955", "15.07N", "105.10E", "102", "LA"],
  ["MUANG KHONG", "VLKG", "None", "None", "14.07N", "105.50E", "76", "LA"],
  ["LUANG-PRABANG", "VLLB", "None", "48930", "19.54N", "102.10E", "291", "LA"],
  ["LUANG NAMTHA", "VLLN", "None", "None", "20.58N", "101.24E", "600", "LA"],
  ["PAKSE INTL", "VLPS", "None", "None", "15.08N", "105.47E", "107", "LA"],
  ["SAYABOURY", "VLSB", "None", "48938", "19.13N", "101.43E", "326", "LA"],
  ["SAVANNAKHET(CV/M", "VLSK", "None", "48947", "16.33N", "104.45E", "155", "LA"],
  ["SAM-NEUA", "VLSN", "None", "48928", "20.25N", "104.04E", "1000", "LA"],
  ["SARAVANE", "VLSV", "None", "48952", "15.40N", "106.25E", "168", "LA"],
  ["THAKHEK", "VLTK", "None", "48946", "17.22N", "104.39E", "52", "LA"],
  ["VIENTIANE/WATTAY", "VLVT", "None", "48940", "17.59N", "102.34E", "171", "LA"],
  ["VANG VIENG(CIV/M", "VLVV", "None", "None", "18.55N", "102.27E", "296", "LA"],
  ["MACAO/MACAU", "VMMC", "None", "45011", "22.09N", "113.35E", "6", "MO"],
  ["BHAIRAWA AIRPORT", "VNBW", "None", "44438", "27.31N", "083.27E", "109", "NP"],
  ["JUMLA", "VNJL", "None", "44424", "29.16N", "082.10E", "2300", "NP"],
  ["KATHMANDU INTL A", "VNKT", "None", "44454", "27.41N", "085.22E", "1337", "NP"],
  ["POKHARA AIRPORT", "VNPK", "None", "44434", "28.13N", "084.00E", "827", "NP"],
  ["SIMRA AIRPORT", "VNSI", "None", "44449", "27.10N", "084.58E", "137", "NP"],
  ["SURKHET", "VNSK", "None", "44416", "28.36N", "081.37E", "720", "NP"],
  ["TAPLEJUNG", "VNTJ", "None", "44474", "27.21N", "087.40E", "1732", "NP"],
  ["BIRATNAGAR AIRPO", "VNVT", "None", "44478", "26.28N", "087.16E", "72", "NP"],
  ["PARO", "VQPR", "None", "None", "27.24N", "089.26E", "2235", "BT"],
  ["GAN ISLAND", "VRGN", "None", "43599", "00.40S", "073.09E", "2", "MV"],
  ["GAN INTL AIRPORT", "VRMG", "None", "None", "00.42S", "073.09E", "3", "MV"],
  ["MALE INTL/HULULE", "VRMM", "None", "43555", "04.12N", "073.31E", "2", "MV"],
  ["CHANTHABURI", "VTBC", "None", "48480", "12.35N", "102.07E", "4", "TH"],
  ["BANGKOK/DON MUAN", "VTBD", "DMK", "48456", "13.55N", "100.36E", "3", "TH"],
  ["KANCHANABURI", "VTBG", "None", "48450", "14.01N", "099.32E", "29", "TH"],
  ["PRACHIN BURI (AR", "VTBI", "None", "48430", "14.03N", "101.22E", "6", "TH"],
  ["PHETCHABURI/THA", "VTBJ", "None", "48465", "13.09N", "100.04E", "4", "TH"],
  ["KAMPHAENG SAEN(A", "VTBK", "None", "None", "14.05N", "099.55E", "9", "TH"],
  ["KOKE KATHIEM (MI", "VTBL", "None", "None", "14.52N", "100.40E", "30", "TH"]]

/-- `STATIONS` (database/stations.py 8917-9016). -/
noncomputable def stations89 : List StationRow := rows! [
  ["TRAT/KHAO SAMING", "VTBO", "None", "None", "12.17N", "102.19E", "32", "TH"],
  ["PRACHUAP KHIRI K", "VTBP", "None", "48500", "11.49N", "099.49E", "5", "TH"],
  ["CHON BURI/SATTAH", "VTBS", "BKK", "48459", "13.41N", "100.45E", "2", "TH"],
  ["RAYONG/U-TAPHAO", "VTBU", "None", "48478", "12.41N", "101.00E", "5", "TH"],
  ["CHIANG KHAM (ARM", "VTCB", "None", "None", "19.30N", "100.16E", "389", "TH"],
  ["CHIANG MAI(CIV/A", "VTCC", "None", "48327", "18.46N", "098.58E", "314", "TH"],
  ["MAE HONG SON/MUA", "VTCH", "None", "48300", "19.18N", "097.59E", "269", "TH"],
  ["LAMPANG", "VTCL", "None", "48328", "18.16N", "099.31E", "242", "TH"],
  ["NAN/MUANG NAN", "VTCN", "None", "48331", "18.49N", "100.46E", "201", "TH"],
  ["PHRAE", "VTCP", "None", "48330", "18.08N", "100.10E", "162", "TH"],
  ["CHIANG RAI", "VTCR", "None", "48303", "19.55N", "099.49E", "395", "TH"],
  ["MAE SARIANG", "VTCS", "None", "48325", "18.10N", "097.55E", "213", "TH"],
  ["CHIANG RAI INTL", "VTCT", "CEI", "None", "19.57N", "099.53E", "390", "TH"],
  ["PHETCHABUN", "VTPB", "None", "None", "16.40N", "101.12E", "137", "TH"],
  ["HUA HIN", "VTPH", "None", "48475", "12.38N", "099.57E", "6", "TH"],
  ["LOM SAK (THAI-AF", "VTPL", "None", "None", "16.49N", "101.15E", "152", "TH"],
  ["SUKHOTHAI", "VTPO", "None", "None", "17.14N", "099.49E", "54", "TH"],
  ["MAE SOT/TAK", "VTPM", "None", "48375", "16.40N", "098.32E", "197", "TH"],
  ["NAKHON SAWAN/PAK", "VTPN", "None", "48400", "15.48N", "100.10E", "35", "TH"],
  ["PHITSANULOK", "VTPP", "PHS", "None", "16.47N", "100.17E", "44", "TH"],
  ["PHITSANULOK/SARI", "VTPS", "None", "48378", "16.46N", "100.16E", "45", "TH"],
  ["TAK", "VTPT", "None", "48376", "16.52N", "099.09E", "124", "TH"],
  ["UTTARADIT EAST", "VTPU", "None", "48351", "17.37N", "100.05E", "64", "TH"],
  ["SATUN (THAI-AFB)", "VTSA", "None", "48570", "06.39N", "100.04E", "6", "TH"],
  ["SURAT THANI", "VTSB", "None", "48551", "09.07N", "099.08E", "11", "TH"],
  ["NARATHIWAT", "VTSC", "NAW", "None", "06.31N", "101.45E", "6", "TH"],
  ["CHUMPHON", "VTSD", "None", "48517", "10.28N", "099.10E", "5", "TH"],
  ["CHUMPHON", "VTSE", "None", "None", "10.43N", "099.22E", "5", "TH"],
  ["NAKHON SI THAMMA", "VTSF", "None", "None", "08.32N", "099.57E", "4", "TH"],
  ["KRABI", "VTSG", "KBV", "None", "08.06N", "098.59E", "25", "TH"],
  ["SONGKHLA(THAI-NA", "VTSH", "None", "48568", "07.12N", "100.35E", "5", "TH"],
  ["PATTANI", "VTSK", "None", "48580", "06.46N", "101.09E", "9", "TH"],
  ["SAMUI", "VTSM", "None", "None", "09.33N", "100.04E", "17", "TH"],
  ["NAKHON SI THAMMA", "VTSN", "None", "48552", "08.28N", "099.58E", "9", "TH"],
  ["PHUKET INTL AIRP", "VTSP", "None", "48565", "08.07N", "098.19E", "10", "TH"],
  ["RANONG", "VTSR", "None", "48532", "09.58N", "098.37E", "8", "TH"],
  ["HAT YAI", "VTSS", "None", "48569", "06.55N", "100.23E", "35", "TH"],
  ["TRANG", "VTST", "None", "48567", "07.31N", "099.37E", "16", "TH"],
  ["MUKDAHAN/BAKHON", "VTUB", "None", "48383", "16.31N", "104.43E", "139", "TH"],
  ["CHAIYAPHUM", "VTUC", "None", "48403", "15.48N", "102.01E", "183", "TH"],
  ["UDON THANI(CIV/A", "VTUD", "None", "48354", "17.22N", "102.47E", "182", "TH"],
  ["SAKON NAKHON", "VTUI", "None", "None", "17.12N", "104.07E", "172", "TH"],
  ["SURIN", "VTUJ", "None", "None", "14.52N", "103.30E", "146", "TH"],
  ["KHON KAEN", "VTUK", "None", "48381", "16.28N", "102.47E", "204", "TH"],
  ["LOEI", "VTUL", "None", "48353", "17.26N", "101.43E", "254", "TH"],
  ["NONG KHAI", "VTUM", "None", "48352", "17.52N", "102.43E", "175", "TH"],
  ["KORAT/NAKHON RAT", "VTUN", "None", "48431", "14.58N", "102.04E", "188", "TH"],
  ["BURIRUM", "VTUO", "None", "None", "15.14N", "103.15E", "183", "TH"],
  ["NAKHON PHANOM", "VTUP", "None", "48357", "17.25N", "104.46E", "148", "TH"],
  ["NAKHON RATCHASIM", "VTUQ", "NAK", "None", "14.57N", "102.19E", "234", "TH"],
  ["ROI ET", "VTUR", "None", "48405", "16.03N", "103.40E", "142", "TH"],
  ["SAKON NAKHON (AR", "VTUS", "None", "48356", "17.08N", "104.07E", "172", "TH"],
  ["UBON/RATCHATHANI", "VTUU", "None", "48407", "15.15N", "104.52E", "127", "TH"],
  ["ROIET", "VTUV", "None", "None", "16.07N", "103.47E", "138", "TH"],
  ["NAKHON PHANOM", "VTUW", "None", "None", "17.23N", "104.38E", "184", "TH"],
  ["CAM RANH BAY", "VVCR", "None", "None", "12.00N", "109.13E", "12", "VN"],
  ["CAN THO", "VVCT", "None", "None", "10.05N", "105.43E", "3", "VN"],
  ["DA NANG INTL ARP", "VVDN", "None", "48855", "16.01N", "108.12E", "7", "VN"],
  ["HANOI/GIALAM", "VVGL", "None", "None", "21.02N", "105.53E", "16", "VN"],
  ["HANOI WMO SITE", "None", "None", "48820", "21.01N", "105.48E", "6", "VN"],
  ["HANOI/NOIBAI INT", "VVNB", "None", "None", "21.13N", "105.48E", "12", "VN"],
  ["NHA TRANG", "VVNT", "None", "48877", "12.15N", "109.12E", "10", "VN"],
  ["HUE/PHUBAI", "VVPB", "None", "48852", "16.23N", "107.42E", "17", "VN"],
  ["PLEIKU CITY", "VVPK", "None", "48866", "13.58N", "108.00E", "801", "VN"],
  ["PHU QUOC", "VVPQ", "None", "None", "10.14N", "103.58E", "4", "VN"],
  ["QUI NHO'N", "VVQN", "None", "48870", "13.46N", "109.13E", "6", "VN"],
  ["HO CHI MINH/TANS", "VVTS", "None", "48900", "10.49N", "106.40E", "19", "VN"],
  ["VINH", "VVVH", "None", "48845", "18.41N", "105.40E", "6", "VN"],
  ["VUNG TAU", "VVVT", "None", "None", "10.22N", "107.04E", "4", "VN"],
  ["YANGON INTL MYAN", "VYYY", "None", "48097", "16.54N", "096.08E", "33", "VN"],
  ["HASANUDDIN/UJUNG", "WAAA", "None", "97180", "05.04S", "119.32E", "14", "ID"],
  ["BAU-BAU/BETO AMB", "WAAB", "None", "97192", "05.28S", "122.37E", "2", "ID"],
  ["KOLAKA/POMALAA", "WAAP", "None", "97142", "04.11S", "121.37E", "3", "ID"],
  ["SOROAKO/LUWU", "WAAS", "None", "97114", "02.31S", "121.20E", "10", "ID"],
  ["KENDARI/WOLTER(A", "WAAU", "None", "97146", "04.05S", "122.25E", "50", "ID"],
  ["BIAK/FRANS KAISI", "WABB", "None", "97560", "01.10S", "136.07E", "11", "ID"],
  ["NABIRE/IRIAN JAY", "WABI", "None", "97682", "03.19S", "135.30E", "3", "ID"],
  ["KOKONAO/TIMUKA", "WABN", "None", "97796", "04.43S", "136.25E", "3", "ID"],
  ["SERUI/YENDOSA", "WABO", "None", "97570", "01.52S", "136.13E", "3", "ID"],
  ["ENAROTALI", "WABT", "None", "97780", "03.55S", "136.22E", "1770", "ID"],
  ["SELAPARANG", "WADA", "None", "None", "08.32S", "116.04E", "3", "ID"],
  ["BALI INTL", "WADD", "DSP", "97230", "08.44S", "115.10E", "216", "ID"],
  ["BANDARA", "WADL", "None", "None", "08.45S", "116.17E", "97", "ID"],
  ["AHMAD YANI", "WAHS", "None", "None", "06.59S", "110.23E", "5", "ID"],
  ["SARMI/ORAI", "WAJI", "None", "97580", "01.49S", "138.43E", "3", "ID"],
  ["JAYAPURA/SENTANI", "WAJJ", "None", "97690", "02.35S", "140.31E", "88", "ID"],
  ["WAMENA/IRIAN JAY", "WAJW", "None", "97686", "04.04S", "138.56E", "1660", "ID"],
  ["MERAUKE/MOPAH", "WAKK", "None", "97980", "08.28S", "140.22E", "3", "ID"],
  ["TANAH MERAH", "WAKT", "None", "97876", "06.05S", "140.18E", "16", "ID"],
  ["GALELA/GAMARMALA", "WAMA", "None", "97406", "01.49N", "127.49E", "8", "ID"],
  ["GORONTALO/JALAL", "WAMG", "None", "97048", "00.31N", "123.04E", "2", "ID"],
  ["TAHUNA/NAHA", "WAMH", "None", "97008", "03.41N", "125.32E", "5", "ID"],
  ["TOLI-TOLI/LALOS", "WAMI", "None", "97028", "01.07N", "120.48E", "2", "ID"],
  ["PALU/MUTIARA", "WAML", "None", "97072", "00.40S", "119.43E", "6", "ID"],
  ["MENADO/SAM RATUL", "WAMM", "None", "97014", "01.33N", "124.55E", "80", "ID"],
  ["MALANGUANE/TALAU", "WAMN", "None", "97004", "04.13N", "126.42E", "9", "ID"],
  ["POSO/KASIGUNCU", "WAMP", "None", "97096", "01.22S", "120.43E", "2", "ID"],
  ["MOROTAI/PITU", "WAMR", "None", "97404", "02.02N", "129.19E", "15", "ID"],
  ["TERNATE/BABULLAH", "WAMT", "None", "97430", "00.50N", "127.23E", "15", "ID"],
  ["LUWUK/BUBUNG", "WAMW", "None", "97086", "00.54S", "122.46E", "2", "ID"]]

end Verif
