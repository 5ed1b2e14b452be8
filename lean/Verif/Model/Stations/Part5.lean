import Verif.Model.Stations.Rows

/-
Rows of `STATIONS` (database/stations.py). Generated by tools/stations2lean.py.
-/

namespace Verif

/-- `STATIONS` (database/stations.py 5017-5116). -/
noncomputable def stations50 : List StationRow := rows! [
  ["BUCARAMANGO/PALO", "SKBG", "None", "80094", "07.08N", "073.11W", "1189", "CO"],
  ["BOGOTA/ELDORADO", "SKBO", "None", "80222", "04.42N", "074.07W", "2548", "CO"],
  ["BARRANQUILLA/ERN", "SKBQ", "None", "80028", "10.54N", "074.46W", "10", "CO"],
  ["BAHIA SOLANO/JOS", "SKBS", "None", "None", "06.10N", "077.24W", "24", "CO"],
  ["BUENAVENTURA", "SKBU", "None", "80252", "03.52N", "077.04W", "15", "CO"],
  ["CUCUTA/CAMILO DA", "SKCC", "None", "80097", "07.55N", "072.31W", "317", "CO"],
  ["CARTAGENA/RAFAEL", "SKCG", "None", "80022", "10.26N", "075.31W", "1", "CO"],
  ["CALI/ALFONSO BON", "SKCL", "None", "80259", "03.32N", "076.22W", "969", "CO"],
  ["TUMACO/LA FLORID", "SKCO", "None", "80336", "01.49N", "078.45W", "6", "CO"],
  ["BARRANCABERMEJA", "SKEJ", "None", "80091", "07.01N", "073.47W", "134", "CO"],
  ["FLORENCIA/CAPITO", "SKFL", "None", "80354", "01.36N", "075.31W", "244", "CO"],
  ["GIRARDOT/SANTIAG", "SKGI", "None", "80219", "04.16N", "074.47W", "293", "CO"],
  ["GUAPI", "SKGP", "None", "80300", "02.34N", "077.54W", "54", "CO"],
  ["IBAGUE/PERALES", "SKIB", "None", "80214", "04.25N", "075.09W", "928", "CO"],
  ["IPIALES/SAN LUIS", "SKIP", "None", "80370", "00.53N", "077.40W", "2961", "CO"],
  ["APARTADO/LOS CED", "SKLC", "None", "80084", "07.49N", "076.42W", "30", "CO"],
  ["LETICIA/VASQUEZ", "SKLT", "None", "80398", "04.12S", "069.56W", "84", "CO"],
  ["MEDELLIN/OLAYA H", "SKMD", "None", "80110", "06.13N", "075.35W", "1499", "CO"],
  ["MONTERIA/LOS GAR", "SKMR", "None", "80063", "08.49N", "075.50W", "26", "CO"],
  ["MITU", "SKMU", "None", "80361", "01.07N", "070.02W", "207", "CO"],
  ["MANIZALES LNUBIA", "SKMZ", "None", "80149", "05.02N", "075.28W", "2080", "CO"],
  ["NEIVA/LA MANGUIT", "SKNV", "None", "80315", "02.58N", "075.17W", "443", "CO"],
  ["OTU", "SKOT", "None", "80089", "07.00N", "074.43W", "630", "CO"],
  ["PUERTO CARRENO", "SKPC", "None", "80139", "06.10N", "067.30W", "55", "CO"],
  ["PEREIRA/MATECANA", "SKPE", "None", "80210", "04.49N", "075.44W", "1346", "CO"],
  ["PITALITO", "SKPI", "None", "80346", "01.52N", "076.02W", "1320", "CO"],
  ["POPAYAN/GUILLERM", "SKPP", "None", "80308", "02.28N", "076.35W", "1730", "CO"],
  ["PASTO/ANTONIO NA", "SKPS", "None", "80342", "01.24N", "077.17W", "1826", "CO"],
  ["PROVIDENCIA ISLA", "SKPV", "None", "80002", "13.22N", "081.20W", "6", "CO"],
  ["MARIQUITA", "SKQU", "None", "None", "05.13N", "074.52W", "467", "CO"],
  ["RIONEGRO/JOSE MA", "SKRG", "None", "80112", "06.10N", "075.25W", "2137", "CO"],
  ["RIOHACHA/ALMIRAN", "SKRH", "None", "80035", "11.31N", "072.55W", "4", "CO"],
  ["SAN JOSE GUAVIAR", "SKSJ", "None", "80322", "02.34N", "072.37W", "155", "CO"],
  ["SANTA MARTA/SIMO", "SKSM", "None", "80009", "11.07N", "074.13W", "4", "CO"],
  ["SAN ANDRES ISLAN", "SKSP", "None", "80001", "12.34N", "081.43W", "-2", "CO"],
  ["TRINIDAD", "SKTD", "None", "80175", "05.25N", "071.39W", "217", "CO"],
  ["TURBO/GONZALO ME", "SKTU", "None", "80062", "08.07N", "076.43W", "5", "CO"],
  ["ARAUCA/SANTIAGO", "SKUC", "None", "80099", "07.04N", "070.43W", "128", "CO"],
  ["QUIBDO/EL CARANO", "SKUI", "None", "80144", "05.43N", "076.37W", "33", "CO"],
  ["TULUA/FARFAN", "SKUL", "None", "None", "04.05N", "076.13W", "955", "CO"],
  ["VALLEDUPAR/ALFON", "SKVP", "None", "80036", "10.25N", "073.15W", "138", "CO"],
  ["VILLAVICENCIO/VA", "SKVV", "None", "80234", "04.10N", "073.37W", "431", "CO"],
  ["YOPAL/EL ALCARAV", "SKYP", "None", "None", "05.19N", "072.23W", "312", "CO"],
  ["GAVIOTAS", "MCGV", "None", "80241", "04.32N", "070.55W", "167", "CO"],
  ["ACARIGUA/OSWALDO", "SVAC", "None", "80427", "09.33N", "069.13W", "225", "VE"],
  ["BARCELONA/GEN JO", "SVBC", "None", "80419", "10.07N", "064.40W", "7", "VE"],
  ["BARINAS", "SVBI", "None", "80440", "08.37N", "070.13W", "204", "VE"],
  ["EL LIBERTADOR (A", "SVBL", "None", "None", "10.10N", "067.32W", "442", "VE"],
  ["BARQUISIMETO (MI", "SVBM", "None", "80410", "10.03N", "069.22W", "614", "VE"],
  ["MARISCAL SUCRE(M", "SVBS", "None", "80413", "10.15N", "067.39W", "437", "VE"],
  ["CIUDAD BOLIVAR", "SVCB", "None", "80444", "08.09N", "063.32W", "48", "VE"],
  ["CALABOZO", "SVCL", "None", "80442", "08.55N", "067.25W", "101", "VE"],
  ["CANAIMA ARPT", "SVCN", "None", "None", "06.14N", "062.51W", "442", "VE"],
  ["CARUPANO/GEN. JO", "SVCP", "None", "None", "10.40N", "063.16W", "10", "VE"],
  ["CORO/JOSE LEONAR", "SVCR", "None", "80403", "11.25N", "069.40W", "17", "VE"],
  ["CARACAS/OSCAR MA", "SVCS", "None", "None", "10.18N", "066.49W", "654", "VE"],
  ["CUMANA/ANTONIO J", "SVCU", "None", "80420", "10.27N", "064.08W", "4", "VE"],
  ["CARRIZAL", "SVCZ", "None", "None", "09.22N", "066.55W", "160", "VE"],
  ["CARACAS/LA CARLO", "SVFM", "None", "80416", "10.29N", "066.50W", "835", "VE"],
  ["GUASDUALITO", "SVGD", "None", "80448", "07.13N", "070.45W", "131", "VE"],
  ["GUIRIA", "SVGI", "None", "80423", "10.34N", "062.19W", "14", "VE"],
  ["GUANARE", "SVGU", "None", "80428", "09.02N", "069.45W", "163", "VE"],
  ["HIGUEROTE", "SVHG", "None", "None", "10.28N", "066.05W", "4", "VE"],
  ["PARAGUANA/JOSEFA", "SVJC", "None", "None", "11.46N", "070.09W", "23", "VE"],
  ["SAN JUAN LOS MOR", "SVJM", "None", "80431", "09.55N", "067.23W", "429", "VE"],
  ["LA FRIA", "SVLF", "None", "None", "08.15N", "072.16W", "98", "VE"],
  ["LA ORCHILA ISL(M", "SVLO", "None", "80405", "11.48N", "066.10W", "3", "VE"],
  ["MARACAIBO/LA CHI", "SVMC", "None", "80407", "10.34N", "071.43W", "65", "VE"],
  ["MERIDA/ALBERTO C", "SVMD", "None", "80438", "08.35N", "071.10W", "1498", "VE"],
  ["MARGARITA/DEL CA", "SVMG", "None", "None", "10.55N", "063.58W", "23", "VE"],
  ["CARACAS/S. BOLIV", "SVMI", "None", "80415", "10.35N", "067.00W", "48", "VE"],
  ["MENE GRANDE", "SVMN", "None", "80425", "09.49N", "070.55W", "28", "VE"],
  ["METROPOLITANO (P", "SVMP", "None", "None", "10.07N", "066.46W", "175", "VE"],
  ["MATURIN", "SVMT", "None", "80435", "09.45N", "063.10W", "66", "VE"],
  ["PUERTO AYACUCHO", "SVPA", "None", "80457", "05.37N", "067.36W", "74", "VE"],
  ["PUERTO CABELLO(M", "SVPC", "None", "80412", "10.29N", "068.04W", "2", "VE"],
  ["PARAMILLO (PRIVA", "SVPM", "None", "None", "07.47N", "072.12W", "1000", "VE"],
  ["GUAYANA/MANUEL C", "SVPR", "None", "None", "08.17N", "062.46W", "144", "VE"],
  ["SAN ANTONIO TACH", "SVSA", "None", "80447", "07.50N", "072.27W", "378", "VE"],
  ["SANTA ELENA UAIR", "SVSE", "None", "80462", "04.35N", "061.07W", "907", "VE"],
  ["SANTO DOMINGO/MA", "SVSO", "None", "80475", "07.34N", "072.02W", "327", "VE"],
  ["SAN FELIPE", "SVSP", "None", "None", "10.16N", "068.45W", "232", "VE"],
  ["SAN FERNANDO APU", "SVSR", "None", "80450", "07.54N", "067.25W", "48", "VE"],
  ["SAN TOME (PRIVAT", "SVST", "None", "None", "08.56N", "064.09W", "262", "VE"],
  ["SANTA BARBARA ZU", "SVSZ", "None", "None", "08.58N", "071.57W", "10", "VE"],
  ["TUMEREMO", "SVTM", "None", "80453", "07.17N", "061.27W", "181", "VE"],
  ["TEMBLADOR (PRIVA", "SVTR", "None", "80478", "09.01N", "062.37W", "30", "VE"],
  ["ZIM VALENCIA INT", "SVVA", "None", "80472", "10.09N", "067.55W", "431", "VE"],
  ["EL VIGIA/PEREZ A", "SVVG", "None", "None", "08.37N", "071.40W", "100", "VE"],
  ["VALERA/DR. ANTON", "SVVL", "None", "80426", "09.20N", "070.35W", "575", "VE"],
  ["VALLE DE LA PASC", "SVVP", "None", "80434", "09.13N", "066.01W", "125", "VE"],
  ["CARRIZAL", "MVCZ", "None", "80432", "09.25N", "066.55W", "161", "VE"],
  ["MENE GRANDE", "MVMN", "None", "None", "09.49N", "070.55W", "28", "VE"],
  ["PORLAMAR DEL CA", "MVPQ", "None", "80421", "10.55N", "063.58W", "19", "VE"],
  ["TEMBLADOR", "MVTR", "None", "None", "09.01N", "062.37W", "30", "VE"],
  ["CAYENNE/ROCHAMBE", "SOCA", "None", "81405", "04.49N", "052.22W", "9", "GY"],
  ["ST LAURENT DU MA", "SOOM", "None", "81401", "05.30N", "054.01W", "9", "GY"],
  ["OGLE AIRPORT", "SYGO", "None", "None", "06.48N", "058.06W", "10", "GY"],
  ["GEORGETOWN", "SYGT", "None", "81001", "06.47N", "058.08W", "2", "GY"],
  ["MABARUMA", "SYMB", "None", "81100", "08.12N", "059.47W", "50", "GY"]]

/-- `STATIONS` (database/stations.py 5117-5216). -/
noncomputable def stations51 : List StationRow := rows! [
  ["GEORGETOWN/TIMEH", "SYCJ", "None", "81002", "06.30N", "058.15W", "30", "GY"],
  ["KAMARANG", "SYKM", "None", "81005", "05.52N", "060.37W", "488", "GY"],
  ["KATO", "SYKT", "None", "None", "04.39N", "059.50W", "701", "GY"],
  ["LETHEM", "SYLT", "None", "81006", "03.22N", "059.47W", "107", "GY"],
  ["EBINI", "None", "None", "81010", "05.34N", "057.47W", "29", "GY"],
  ["NEW AMSTERDAM", "None", "None", "81058", "06.15N", "057.18W", "2", "GY"],
  ["KAIETEUR FALLS", "None", "None", "81080", "05.11N", "059.29W", "439", "GY"],
  ["GEORGETOWN/TIMEH", "SYTM", "None", "None", "06.30N", "058.15W", "30", "GY"],
  ["AMBATO/CHACHOAN", "SEAM", "None", "84147", "01.11S", "078.34W", "2520", "EC"],
  ["ASCAZUBI", "SEAS", "None", "None", "00.04S", "078.17W", "2743", "EC"],
  ["BAHIA DE CARAQUE", "SEBC", "None", "84101", "00.34S", "080.24W", "3", "EC"],
  ["CHONE", "SECH", "None", "84015", "00.42S", "080.07W", "69", "EC"],
  ["COCA/FRANCISCO", "SECO", "None", "84099", "00.27S", "076.59W", "220", "EC"],
  ["CUENCA/MARISCAL", "SECU", "None", "84239", "02.52S", "078.58W", "2531", "EC"],
  ["ESMERALDAS-TACHI", "SEES", "None", "84018", "00.58N", "079.37W", "8", "EC"],
  ["SEYMOUR(EQ-AFB/C", "SEGS", "None", "84001", "00.27S", "090.16W", "16", "EC"],
  ["GUAYAQUIL/SIMON", "SEGU", "None", "84203", "02.08S", "079.52W", "9", "EC"],
  ["IBARRA/ATAHUALPA", "SEIB", "None", "84043", "00.21N", "078.07W", "2228", "EC"],
  ["LAGO AGRIO", "SELA", "None", "84063", "00.04N", "076.52W", "299", "EC"],
  ["LIMONCOCHA", "SELI", "None", "None", "00.24S", "076.35W", "221", "EC"],
  ["CATAMAYO/ENRIQUE", "SELO", "None", "84265", "04.00S", "079.22W", "1238", "EC"],
  ["LATACUNGA/COTOPA", "SELT", "None", "84123", "00.55S", "078.37W", "2785", "EC"],
  ["MACARA/J.M.VELAS", "SEMA", "None", "84279", "04.22S", "079.55W", "430", "EC"],
  ["MACHALA/GEN SERR", "SEMH", "None", "84248", "03.15S", "079.58W", "10", "EC"],
  ["MANTA/ELOY ALFAR", "SEMT", "None", "84117", "00.57S", "080.40W", "14", "EC"],
  ["LAGO AGRIO", "SENL", "None", "None", "00.06N", "076.52W", "293", "EC"],
  ["PASTAZA/RIO AMAZ", "SEPA", "None", "84163", "01.30S", "078.02W", "1043", "EC"],
  ["PORTOVIEJO/REALE", "SEPV", "None", "None", "01.01S", "080.28W", "44", "EC"],
  ["QUITO/NEW INTL", "SEQM", "None", "None", "00.07S", "078.21W", "2400", "EC"],
  ["QUITO/MARISCAL S", "SEQU", "None", "84071", "00.09S", "078.28W", "2812", "EC"],
  ["RIOBAMBA/CHIMBOR", "SERB", "None", "84176", "01.37S", "078.40W", "2796", "EC"],
  ["SALINAS/GEN ULPI", "SESA", "None", "84200", "02.12S", "080.58W", "8", "EC"],
  ["SAN LORENZO", "SESL", "None", "None", "01.16N", "078.50W", "40", "EC"],
  ["SAN CRISTOBAL IS", "SEST", "None", "84008", "00.54S", "089.35W", "6", "EC"],
  ["TAURA (EQ-AFB)", "SETA", "None", "84125", "02.16S", "079.40W", "17", "EC"],
  ["TIPUTINI", "SETI", "None", "84131", "00.46S", "075.31W", "220", "EC"],
  ["TULCAN/EL ROSAL", "SETU", "None", "84027", "00.49N", "077.42W", "2940", "EC"],
  ["ATALAYA", "SPAY", "None", "84593", "10.43S", "073.46W", "451", "PE"],
  ["MOYOBAMBA", "SPBB", "None", "84435", "06.01S", "076.58W", "833", "PE"],
  ["PUCALLPA (CIV/MI", "SPCL", "None", "84515", "08.23S", "074.35W", "149", "PE"],
  ["MOLLENDO", "SPDO", "None", "84761", "17.01S", "072.01W", "13", "PE"],
  ["CHIMBOTE/TENIENT", "SPEO", "None", "84531", "09.10S", "078.31W", "11", "PE"],
  ["CESAR TORQUE POD", "SPEQ", "None", "None", "17.10S", "070.55W", "1366", "PE"],
  ["TINGO MARIA", "SPGM", "None", "84534", "09.17S", "076.00W", "665", "PE"],
  ["CHICLAYO/CAPT JO", "SPHI", "None", "84452", "06.46S", "079.49W", "34", "PE"],
  ["AYACUCHO/CORONEL", "SPHO", "None", "84673", "13.10S", "074.13W", "2749", "PE"],
  ["HUANCAYO", "SPHU", "None", "None", "12.04S", "075.13W", "3350", "PE"],
  ["ANDAHUAYLA", "SPHY", "None", "84688", "13.42S", "073.21W", "3548", "PE"],
  ["ANTA/HUARAZ", "SPHZ", "None", "84542", "09.20S", "077.35W", "2760", "PE"],
  ["QUINCEMIL", "SPIL", "None", "84677", "13.16S", "070.40W", "634", "PE"],
  ["LIMA/JORGE CHAVE", "SPIM", "None", "84628", "12.01S", "077.07W", "13", "PE"],
  ["RIOJA", "SPJA", "None", "84440", "06.02S", "077.09W", "792", "PE"],
  ["JUANJUI", "SPJI", "None", "84474", "07.10S", "076.43W", "363", "PE"],
  ["JAUJA", "SPJJ", "None", "None", "11.46S", "075.28W", "3322", "PE"],
  ["JULIACA", "SPJL", "None", "84735", "15.28S", "070.09W", "3827", "PE"],
  ["SAN JUAN DE MARC", "SPJN", "None", "84721", "15.21S", "075.08W", "40", "PE"],
  ["CAJAMARCA/REVORE", "SPJR", "None", "84472", "07.07S", "078.28W", "2622", "PE"],
  ["ILO", "SPLO", "None", "84773", "17.42S", "071.21W", "9", "PE"],
  ["LAS PALMAS (MIL)", "SPLP", "None", "None", "12.10S", "077.00W", "76", "PE"],
  ["TUMBES/PEDRO CAN", "SPME", "None", "84370", "03.32S", "080.24W", "27", "PE"],
  ["YURIMAGUAS/MOISE", "SPMS", "None", "84425", "05.54S", "076.07W", "179", "PE"],
  ["HUANUCO/ALFEREZ", "SPNC", "None", "84564", "09.54S", "075.45W", "1860", "PE"],
  ["ZORRITOS", "SPOS", "None", "None", "03.40S", "080.40W", "49", "PE"],
  ["PARAMONGA", "SPPG", "None", "None", "10.40S", "077.49W", "46", "PE"],
  ["CHACHAPOYAS", "SPPY", "None", "84444", "06.13S", "077.49W", "2435", "PE"],
  ["IQUITOS/SECADA", "SPQT", "None", "84377", "03.47S", "073.19W", "126", "PE"],
  ["AREQUIPA/RODRIGU", "SPQU", "None", "84752", "16.20S", "071.34W", "2554", "PE"],
  ["TRUJILLO/MARTINE", "SPRU", "None", "84501", "08.05S", "079.07W", "30", "PE"],
  ["PISCO (CIV/MIL)", "SPSO", "None", "84691", "13.44S", "076.13W", "10", "PE"],
  ["TARAPOTO", "SPST", "None", "84455", "06.31S", "076.22W", "282", "PE"],
  ["TACNA/CIRIANI", "SPTN", "None", "84782", "18.04S", "070.17W", "458", "PE"],
  ["PUERTO MALDONADO", "SPTU", "None", "84658", "12.37S", "069.12W", "266", "PE"],
  ["PIURA/CAPT CONCH", "SPUR", "None", "84401", "05.10S", "080.35W", "55", "PE"],
  ["CARAVELI", "SPVL", "None", "None", "15.46S", "073.22W", "1833", "PE"],
  ["TALARA/CAPT MONT", "SPYL", "None", "84390", "04.34S", "081.15W", "90", "PE"],
  ["NAZCA REICHE APT", "SPZA", "None", "None", "14.52S", "074.57W", "765", "PE"],
  ["CUZCO/VELAZCO AS", "SPZO", "None", "84686", "13.33S", "071.58W", "3249", "PE"],
  ["APOLO", "SLAP", "None", "85151", "14.43S", "068.25W", "1415", "BO"],
  ["ASCENCION GUARAY", "SLAS", "None", "85175", "15.43S", "063.06W", "247", "BO"],
  ["CAMIRI", "SLCA", "None", "85315", "20.00S", "063.32W", "798", "BO"],
  ["COCHABAMBA/JORGE", "SLCB", "None", "85223", "17.25S", "066.11W", "2548", "BO"],
  ["CHARANA", "SLCN", "None", "85230", "17.35S", "069.27W", "4057", "BO"],
  ["COBIJA", "SLCO", "None", "85041", "11.02S", "068.47W", "272", "BO"],
  ["CONCEPCION", "SLCP", "None", "85196", "16.09S", "062.01W", "497", "BO"],
  ["SANTA CRUZ/EL TR", "SLET", "None", "85245", "17.48S", "063.10W", "414", "BO"],
  ["GUAYARAMERIN", "SLGY", "None", "85033", "10.49S", "065.20W", "130", "BO"],
  ["SAN JOSE", "SLJE", "None", "85247", "17.49S", "060.45W", "284", "BO"],
  ["SAN JOAQUIN", "SLJO", "None", "85104", "13.04S", "064.40W", "140", "BO"],
  ["SAN JAVIER", "SLJV", "None", "85195", "16.16S", "062.28W", "520", "BO"],
  ["LA PAZ/JFK INTL", "SLLP", "None", "85201", "16.31S", "068.10W", "4014", "BO"],
  ["MAGDALENA", "SLMG", "None", "85114", "13.16S", "064.04W", "141", "BO"],
  ["ORURO/JUAN MENDO", "SLOR", "None", "85242", "17.58S", "067.05W", "3702", "BO"],
  ["POTOSI/ROJAS", "SLPO", "None", "85293", "19.31S", "065.43W", "3934", "BO"],
  ["PUERTO SUAREZ/SA", "SLPS", "None", "85289", "18.59S", "057.49W", "135", "BO"],
  ["ROBORE (CIV/MIL)", "SLRB", "None", "85268", "18.19S", "059.45W", "284", "BO"],
  ["RIBERALTA", "SLRI", "None", "85043", "11.01S", "066.05W", "135", "BO"],
  ["RURRENABAQUE", "SLRQ", "None", "85141", "14.25S", "067.30W", "203", "BO"],
  ["REYES", "SLRY", "None", "85140", "14.18S", "067.22W", "280", "BO"],
  ["SANTA ANA DE YAC", "SLSA", "None", "85123", "13.46S", "065.26W", "144", "BO"],
  ["SAN BORJA/CAPT G", "SLSB", "None", "85152", "14.52S", "066.45W", "194", "BO"]]

/-- `STATIONS` (database/stations.py 5217-5316). -/
noncomputable def stations52 : List StationRow := rows! [
  ["SAN IGNACIO VELA", "SLSI", "None", "85207", "16.22S", "060.57W", "413", "BO"],
  ["SAN IGNACIO DE M", "SLSM", "None", "85153", "14.58S", "065.38W", "160", "BO"],
  ["SUCRE/JUANA AZUR", "SLSU", "None", "85283", "19.01S", "065.16W", "2903", "BO"],
  ["TARIJA/CAPT ORIE", "SLTJ", "None", "85364", "21.33S", "064.43W", "1858", "BO"],
  ["TRINIDAD/JORGE H", "SLTR", "None", "85154", "14.50S", "064.55W", "157", "BO"],
  ["VILLA MONTES/RAF", "SLVM", "None", "85345", "21.15S", "063.24W", "400", "BO"],
  ["VIRU VIRU INTL A", "SLVR", "None", "85244", "17.38S", "063.07W", "373", "BO"],
  ["YACUIBA", "SLYA", "None", "85365", "21.58S", "063.39W", "645", "BO"],
  ["CONCEICAO ARAGUA", "SBAA", "None", "82861", "08.21S", "049.18W", "199", "BR"],
  ["AFONSOS ARPT (MI", "SBAF", "None", "83748", "22.52S", "043.22W", "34", "BR"],
  ["AMAPA AIRPORT", "SBAM", "None", "82030", "02.04N", "050.51W", "10", "BR"],
  ["ANAPOLIS (BRAZ-A", "SBAN", "None", "83419", "16.13S", "048.58W", "1137", "BR"],
  ["ASSIS", "SBAS", "None", "None", "22.38S", "050.27W", "564", "BR"],
  ["ARARAQUARA", "SBAQ", "None", "None", "21.48S", "048.08W", "708", "BR"],
  ["ARACAJU/SANTA MA", "SBAR", "None", "83095", "10.58S", "037.04W", "9", "BR"],
  ["ALTA FLORESTA", "SBAT", "None", "82965", "09.52S", "056.06W", "288", "BR"],
  ["ARACATUBA", "SBAU", "None", "None", "21.08S", "050.26W", "415", "BR"],
  ["ARAXA", "SBAX", "None", "None", "19.34S", "046.58W", "998", "BR"],
  ["BOCADOACRE", "SBBA", "None", "82816", "08.43S", "067.19W", "112", "BR"],
  ["BENJAMIN CONSTAN", "SBBC", "None", "82410", "04.22S", "070.01W", "65", "BR"],
  ["BELEM/VAL DE CAE", "SBBE", "None", "82193", "01.22S", "048.28W", "16", "BR"],
  ["BAGE/CMDT KRAEME", "SBBG", "None", "83981", "31.23S", "054.07W", "180", "BR"],
  ["BELO HORIZ/PAMPU", "SBBH", "None", "83583", "19.51S", "043.57W", "785", "BR"],
  ["CURITIBA/BACACHE", "SBBI", "None", "83842", "25.24S", "049.14W", "923", "BR"],
  ["BARBACENA (CIV/M", "SBBQ", "None", "83689", "21.15S", "043.46W", "1171", "BR"],
  ["BRASILIA (CIV/MI", "SBBR", "None", "83378", "15.52S", "047.55W", "1061", "BR"],
  ["CHAFEI AMSEI", "SBBT", "None", "None", "20.35S", "048.36W", "579", "BR"],
  ["BAURU", "SBBU", "None", "83722", "22.19S", "049.04W", "590", "BR"],
  ["BOA VISTA (CIV/M", "SBBV", "None", "82022", "02.51N", "060.42W", "140", "BR"],
  ["BERRA DO GARCAS", "SBBW", "None", "83359", "15.52S", "052.22W", "350", "BR"],
  ["BUZIOS/MODIANO", "SBBZ", "None", "None", "22.45S", "041.57W", "3", "BR"],
  ["CASCAVEL", "SBCA", "None", "None", "25.00S", "053.30W", "754", "BR"],
  ["CABO FRIO", "SBCB", "None", "None", "22.55S", "042.05W", "4", "BR"],
  ["CACHIMBO", "SBCC", "None", "None", "09.19S", "054.57W", "536", "BR"],
  ["CACADOR", "SBCD", "None", "None", "26.47S", "050.56W", "1029", "BR"],
  ["BELO HORIZ/TANCR", "SBCF", "None", "83587", "19.38S", "043.58W", "828", "BR"],
  ["CAMPO GRANDE INT", "SBCG", "None", "83612", "20.28S", "054.40W", "567", "BR"],
  ["CHAPECO", "SBCH", "None", "None", "27.08S", "052.40W", "650", "BR"],
  ["CAROLINA AIRPORT", "SBCI", "None", "82764", "07.19S", "047.28W", "183", "BR"],
  ["CARAJAS/MARABA", "SBCJ", "None", "None", "06.07S", "050.00W", "621", "BR"],
  ["FORQUILHINHA", "SBCM", "None", "None", "28.43S", "049.25W", "28", "BR"],
  ["PORTO ALEGRE/CAN", "SBCO", "None", "83967", "29.57S", "051.09W", "47", "BR"],
  ["CAMPOS/BARTOLOME", "SBCP", "None", "83698", "21.42S", "041.18W", "11", "BR"],
  ["CORUMBA INTL ARP", "SBCR", "None", "83552", "19.00S", "057.40W", "141", "BR"],
  ["CURITIBA/AFONSO", "SBCT", "None", "83840", "25.31S", "049.10W", "908", "BR"],
  ["CARAVELAS AIRPOR", "SBCV", "None", "83497", "17.37S", "039.15W", "4", "BR"],
  ["CAXIAS DO SUL", "SBCX", "None", "None", "29.12S", "051.11W", "754", "BR"],
  ["CUIABA/MARECHAL", "SBCY", "None", "83362", "15.39S", "056.07W", "182", "BR"],
  ["CRUZEIRO DO SUL", "SBCZ", "None", "82705", "07.37S", "072.46W", "170", "BR"],
  ["PRESIDENTE PRUDE", "SBDN", "None", "83716", "22.11S", "051.26W", "435", "BR"],
  ["PIRANA P15 OIL", "SBEC", "None", "None", "22.40S", "040.36W", "10", "BR"],
  ["EDUARDO GOMES IN", "SBEG", "None", "82111", "03.01S", "060.02W", "2", "BR"],
  ["JACAREACANGA", "SBEK", "None", "82640", "06.14S", "057.47W", "98", "BR"],
  ["EIRUNEPE", "SBER", "None", "82610", "06.40S", "069.52W", "104", "BR"],
  ["SAO PEDRO DA ALD", "SBES", "None", "83759", "22.49S", "042.06W", "11", "BR"],
  ["FOZ DO IGUACU AR", "SBFI", "None", "83827", "25.36S", "054.29W", "243", "BR"],
  ["FLORIANOPOLIS AR", "SBFL", "None", "83899", "27.40S", "048.32W", "5", "BR"],
  ["FERNANDO DE NORO", "SBFN", "None", "82400", "03.51S", "032.25W", "56", "BR"],
  ["CMP D GOITACAZES", "SBFS", "None", "None", "22.01S", "041.04W", "3", "BR"],
  ["FRONTEIRA", "SBFT", "None", "None", "20.17S", "049.11W", "487", "BR"],
  ["FURNAS (PRIVATE)", "SBFU", "None", "None", "20.41S", "046.19W", "735", "BR"],
  ["FORTALEZA/PINTO", "SBFZ", "None", "82398", "03.46S", "038.31W", "25", "BR"],
  ["GAMA", "SBGA", "None", "83375", "16.03S", "048.02W", "700", "BR"],
  ["GALEAO/RIO(CIV/M", "SBGL", "None", "83746", "22.49S", "043.15W", "6", "BR"],
  ["GUAJARA MIRIM", "SBGM", "None", "83016", "10.47S", "065.17W", "146", "BR"],
  ["GOIANIA/SANTA GE", "SBGO", "None", "83424", "16.37S", "049.13W", "747", "BR"],
  ["GAVIAO PEIXOTO", "SBGP", "None", "None", "21.46S", "048.24W", "609", "BR"],
  ["GUARULHOS (CIV/M", "SBGR", "None", "None", "23.25S", "046.28W", "750", "BR"],
  ["GUARAPUAVA", "SBGU", "None", "None", "25.23S", "051.31W", "1065", "BR"],
  ["GOV VALADARES", "SBGV", "None", "None", "18.53S", "041.59W", "171", "BR"],
  ["GUARATINGUETA (M", "SBGW", "None", "83708", "22.46S", "045.12W", "533", "BR"],
  ["ALTAMIRA", "SBHT", "None", "82353", "03.15S", "052.16W", "74", "BR"],
  ["ITACOATIARA", "SBIC", "None", "82335", "03.07S", "058.28W", "43", "BR"],
  ["ITAITUBA", "SBIH", "None", "82444", "04.15S", "056.00W", "34", "BR"],
  ["ILHEUS AIRPORT", "SBIL", "None", "83349", "14.48S", "039.01W", "5", "BR"],
  ["USIMINAS/PARAISO", "SBIP", "None", "None", "19.28S", "042.29W", "239", "BR"],
  ["ITUMBIARA", "SBIT", "None", "None", "18.26S", "049.12W", "497", "BR"],
  ["IMPERATRIZE", "SBIZ", "None", "82564", "05.31S", "047.27W", "123", "BR"],
  ["JUIZ FORA/FRANCI", "SBJF", "None", "83692", "21.46S", "043.23W", "939", "BR"],
  ["JOAO PESSOA/PRES", "SBJP", "None", "82798", "07.09S", "034.57W", "7", "BR"],
  ["RIO/JACAREPAGUA", "SBJR", "None", "83111", "22.58S", "043.22W", "3", "BR"],
  ["JUAZEIRO D NORTE", "SBJU", "None", "None", "07.13S", "039.16W", "409", "BR"],
  ["JOINVILLE", "SBJV", "None", "83905", "26.13S", "048.48W", "4", "BR"],
  ["CAMPINA GRANDE", "SBKG", "None", "82795", "07.16S", "035.52W", "560", "BR"],
  ["CAMPINAS/VIRACOP", "SBKP", "None", "83721", "23.00S", "047.07W", "661", "BR"],
  ["ALBACORA P25 OIL", "SBLB", "None", "None", "22.06S", "039.55W", "10", "BR"],
  ["LENCOIS CHAPADA", "SBLE", "None", "None", "12.29S", "041.17W", "511", "BR"],
  ["LAGES", "SBLJ", "None", "None", "27.47S", "050.17W", "934", "BR"],
  ["LINS", "SBLN", "None", "83674", "21.40S", "049.45W", "426", "BR"],
  ["LONDRINA AIRPORT", "SBLO", "None", "83768", "23.19S", "051.07W", "570", "BR"],
  ["BOM JESUS DA LAP", "SBLP", "None", "83288", "13.16S", "043.25W", "440", "BR"],
  ["LAGOA SANTA(CV/M", "SBLS", "None", "83588", "19.40S", "043.53W", "852", "BR"],
  ["MARABA", "SBMA", "None", "82562", "05.22S", "049.08W", "102", "BR"],
  ["MINACU", "SBMC", "None", "None", "13.33S", "048.12W", "440", "BR"],
  ["MONTE DOURADO", "SBMD", "None", "82091", "00.52S", "052.36W", "206", "BR"],
  ["MACAE", "SBME", "None", "None", "22.21S", "041.46W", "2", "BR"],
  ["MARINGA", "SBMG", "None", "83767", "23.29S", "052.01W", "542", "BR"],
  ["MONTES CLAROS", "SBMK", "None", "83437", "16.42S", "043.49W", "646", "BR"],
  ["MARILIA", "SBML", "None", "None", "22.11S", "049.55W", "647", "BR"],
  ["MARLIM P20 OIL", "SBMM", "None", "None", "22.21S", "040.05W", "10", "BR"]]

/-- `STATIONS` (database/stations.py 5317-5416). -/
noncomputable def stations53 : List StationRow := rows! [
  ["MANAUS/PONTA PEL", "SBMN", "None", "82332", "03.08S", "059.58W", "84", "BR"],
  ["MACEIO/CAMPO PAL", "SBMO", "None", "82993", "09.31S", "035.46W", "115", "BR"],
  ["MACAPA INTL AIRP", "SBMQ", "None", "82098", "00.03N", "051.04W", "15", "BR"],
  ["MOSSORO", "SBMS", "None", "82591", "05.12S", "037.22W", "18", "BR"],
  ["MARTE (CIV/MIL)", "SBMT", "None", "83779", "23.31S", "046.37W", "722", "BR"],
  ["MANICORE", "SBMY", "None", "82533", "05.49S", "061.17W", "49", "BR"],
  ["PORTO DE MOZ", "SBMZ", "None", "82184", "01.44S", "052.15W", "17", "BR"],
  ["NAVEGANTES", "SBNF", "None", "83926", "26.53S", "048.39W", "5", "BR"],
  ["SANTO ANGELO ARP", "SBNM", "None", "None", "28.16S", "054.10W", "322", "BR"],
  ["NATAL/AUGUSTO SE", "SBNT", "None", "82599", "05.55S", "035.15W", "49", "BR"],
  ["OIAPOQUE", "SBOI", "None", "82017", "03.51N", "051.49W", "39", "BR"],
  ["PORTO ALEGRE/SAL", "SBPA", "None", "83971", "30.00S", "051.10W", "3", "BR"],
  ["PARNAIBA AIRPORT", "SBPB", "None", "82288", "02.55S", "041.45W", "5", "BR"],
  ["POCOS DE CALDAS", "SBPC", "None", "83681", "21.51S", "046.34W", "1260", "BR"],
  ["PASSO FUNDO/LAUR", "SBPF", "None", "83914", "28.15S", "052.20W", "684", "BR"],
  ["PARANAGUA", "SBPG", "None", "83844", "25.31S", "048.31W", "4", "BR"],
  ["PALMAS", "SBPJ", "None", "83065", "10.17S", "048.22W", "236", "BR"],
  ["PELOTAS", "SBPK", "None", "83985", "31.43S", "052.20W", "13", "BR"],
  ["PETROLINA AIRPOR", "SBPL", "None", "82984", "09.22S", "040.34W", "375", "BR"],
  ["PORTO NACIONAL A", "SBPN", "None", "83063", "10.43S", "048.23W", "265", "BR"],
  ["PONTA PORA INTL", "SBPP", "None", "83703", "22.33S", "055.42W", "660", "BR"],
  ["BELO HORIZONTE", "SBPR", "None", "83571", "19.54S", "043.59W", "927", "BR"],
  ["PORTO SEGURO", "SBPS", "None", "83460", "16.26S", "039.04W", "51", "BR"],
  ["PORTO VELHO(CV/M", "SBPV", "None", "82824", "08.43S", "063.54W", "88", "BR"],
  ["VITORIA DA CONQU", "SBQV", "None", "83344", "14.52S", "040.52W", "893", "BR"],
  ["RIO BRANCO/MEDIC", "SBRB", "None", "82917", "10.00S", "067.47W", "143", "BR"],
  ["RECIFE/GUARARAPE", "SBRF", "None", "82899", "08.08S", "034.55W", "19", "BR"],
  ["RIO GRANDE", "SBRG", "None", "83995", "32.01S", "052.05W", "8", "BR"],
  ["SANTOS DUMONT/RI", "SBRJ", "None", "83755", "22.53S", "043.10W", "3", "BR"],
  ["LEITE LOPES/RIBE", "SBRP", "None", "None", "21.07S", "047.46W", "549", "BR"],
  ["SAO ROQUE/S. PAU", "SBRQ", "None", "83058", "23.31S", "047.07W", "750", "BR"],
  ["RESENDE", "SBRS", "None", "83738", "22.28S", "044.28W", "439", "BR"],
  ["SAO CARLOS(PRIVA", "SBSA", "None", "83726", "22.01S", "047.52W", "856", "BR"],
  ["SANTA CRUZ (MIL)", "SBSC", "None", "83741", "22.55S", "043.43W", "3", "BR"],
  ["NATAL", "SBSG", "None", "None", "05.46S", "035.22W", "83", "BR"],
  ["SAO JOSE DOS CAM", "SBSJ", "None", "None", "23.13S", "045.52W", "646", "BR"],
  ["SAO LUIS/MARECHA", "SBSL", "None", "82280", "02.36S", "044.13W", "53", "BR"],
  ["SANTA MARIA(CV/M", "SBSM", "None", "83937", "29.43S", "053.42W", "85", "BR"],
  ["SANTAREM INTL AR", "SBSN", "None", "82244", "02.25S", "054.47W", "72", "BR"],
  ["SAO PAULO/CONGON", "SBSP", "None", "83780", "23.37S", "046.38W", "803", "BR"],
  ["SAO JOSE PRETO", "SBSR", "None", "None", "20.48S", "049.24W", "543", "BR"],
  ["SANTOS (BRAZ-AFB", "SBST", "None", "83818", "23.55S", "046.17W", "3", "BR"],
  ["SALVADOR/DOIS JU", "SBSV", "None", "83248", "12.54S", "038.19W", "6", "BR"],
  ["SANTA ISABEL MOR", "SBSY", "None", "83156", "11.34S", "050.40W", "197", "BR"],
  ["TAUBATE (BASE)", "SBTA", "None", "None", "23.02S", "045.30W", "586", "BR"],
  ["ORIXIMINA", "SBTB", "None", "None", "01.29S", "056.23W", "87", "BR"],
  ["UNA HOTEL TRANSA", "SBTC", "None", "None", "15.21S", "038.59W", "6", "BR"],
  ["TOLEDO", "SBTD", "None", "None", "24.41S", "053.42W", "565", "BR"],
  ["TERESINA AIRPORT", "SBTE", "None", "82579", "05.02S", "042.49W", "69", "BR"],
  ["TEFE", "SBTF", "None", "82317", "03.22S", "064.43W", "47", "BR"],
  ["TARAUACA", "SBTK", "None", "82808", "08.10S", "070.46W", "188", "BR"],
  ["TELEMACO BORBA", "SBTL", "None", "None", "24.19S", "050.39W", "796", "BR"],
  ["TORRES", "SBTR", "None", "83948", "29.21S", "049.44W", "1", "BR"],
  ["TIRIOS", "SBTS", "None", "82026", "02.13S", "055.56W", "325", "BR"],
  ["TABATINGA INTL A", "SBTT", "None", "82411", "04.15S", "069.56W", "85", "BR"],
  ["TUCURUI", "SBTU", "None", "82361", "03.47S", "049.43W", "40", "BR"],
  ["SAO GABRIEL CACH", "SBUA", "None", "82107", "00.09S", "066.59W", "79", "BR"],
  ["PAULO AFONSO", "SBUF", "None", "82986", "09.24S", "038.15W", "252", "BR"],
  ["URUGUAIANA/RUBEM", "SBUG", "None", "83928", "29.46S", "057.01W", "74", "BR"],
  ["CARAUARI", "SBUI", "None", "82418", "04.57S", "066.54W", "81", "BR"],
  ["UBERLANDIA", "SBUL", "None", "83525", "18.52S", "048.13W", "922", "BR"],
  ["URUBUPUNGA/CASTI", "SBUP", "None", "83617", "20.48S", "051.34W", "356", "BR"],
  ["UBERABA", "SBUR", "None", "83576", "19.46S", "047.58W", "807", "BR"],
  ["PORTO URUCU", "SBUY", "None", "None", "04.53S", "065.21W", "72", "BR"],
  ["VARGINHA", "SBVG", "None", "None", "21.35S", "045.28W", "923", "BR"],
  ["VILHENA", "SBVH", "None", "83208", "12.43S", "060.07W", "652", "BR"],
  ["VITORIA/GOIABEIR", "SBVT", "None", "83649", "20.16S", "040.16W", "4", "BR"],
  ["CACHIMBO-IN-PAR", "SBXI", "None", "82930", "09.21S", "054.53W", "432", "BR"],
  ["XAVANTINA", "SBXV", "None", "83319", "14.41S", "052.21W", "315", "BR"],
  ["IAUARETE (PRIVAT", "SBYA", "None", "82068", "00.37N", "069.12W", "105", "BR"],
  ["PIRASSUNUNGA/CAM", "SBYS", "None", "83671", "21.58S", "047.19W", "598", "BR"],
  ["BARCELOS", "SWBC", "None", "82113", "00.58S", "062.55W", "40", "BR"],
  ["PARINTINS", "SWPI", "None", "None", "02.40S", "056.47W", "27", "BR"],
  ["LABREA", "None", "None", "82723", "07.15S", "064.50W", "60", "BR"],
  ["CRUZEIRO DO SUL", "None", "None", "82704", "07.37S", "072.40W", "170", "BR"],
  ["SAO LUIS/MARECHA", "None", "None", "82281", "02.36S", "044.13W", "53", "BR"],
  ["ASUNCION/SILVIO", "SGAS", "None", "86218", "25.15S", "057.31W", "101", "PY"],
  ["CONCEPCION/MARIS", "SGCO", "None", "86134", "23.25S", "057.17W", "74", "PY"],
  ["ENCARNACION", "SGEN", "None", "86297", "27.19S", "055.49W", "91", "PY"],
  ["GUARANY", "SGES", "None", "None", "25.27S", "054.51W", "849", "PY"],
  ["FILADELFIA", "SGFI", "None", "None", "22.22S", "060.02W", "139", "PY"],
  ["MARISCAL ESTIGAR", "SGME", "None", "86068", "22.01S", "060.36W", "181", "PY"],
  ["NUEVA ASUNCION", "SGNA", "None", "86017", "20.43S", "061.55W", "315", "PY"],
  ["PILAR", "SGPI", "None", "86255", "26.51S", "058.19W", "56", "PY"],
  ["MELILLA/ANGEL S.", "SUAA", "None", "86575", "34.46S", "056.15W", "54", "UY"],
  ["ARTIGAS", "SUAG", "None", "86330", "30.24S", "056.30W", "123", "UY"],
  ["COLONIA SACRAMEN", "SUCA", "None", "86560", "34.27S", "057.46W", "23", "UY"],
  ["DURAZNO/SANTA BE", "SUDU", "None", "86530", "33.21S", "056.30W", "93", "UY"],
  ["CAPITAN CORBETA", "SULS", "None", "None", "34.52S", "055.06W", "30", "UY"],
  ["MERCEDES/RICARDO", "SUME", "None", "86490", "33.15S", "058.04W", "22", "UY"],
  ["MELO/CERRO LARGO", "SUMO", "None", "86440", "32.20S", "054.13W", "100", "UY"],
  ["CARRASCO (CIV/MI", "SUMU", "None", "86580", "34.49S", "056.00W", "32", "UY"],
  ["MALDONADO/PUNTA", "SUPE", "None", "None", "34.55S", "054.55W", "15", "UY"],
  ["PAYSANDU", "SUPU", "None", "86430", "32.19S", "058.01W", "61", "UY"],
  ["RIVERA", "SURV", "None", "86350", "30.58S", "055.28W", "205", "UY"],
  ["SALTO", "SUSO", "None", "86360", "31.26S", "057.59W", "34", "UY"],
  ["TACUAREMBO", "SUTB", "None", "86370", "31.41S", "055.58W", "134", "UY"],
  ["TREINTA Y TRES", "SUTR", "None", "86500", "33.13S", "054.22W", "46", "UY"],
  ["ANCUD/PUPELDE", "SCAC", "None", "85818", "41.53S", "073.47W", "114", "CL"],
  ["ALTO PALENA", "SCAP", "None", "85836", "43.37S", "071.47W", "277", "CL"]]

/-- `STATIONS` (database/stations.py 5417-5516). -/
noncomputable def stations54 : List StationRow := rows! [
  ["ARICA/CHACALLUTA", "SCAR", "None", "85406", "18.21S", "070.19W", "59", "CL"],
  ["CABO JUAN ROMAN", "SCAS", "None", "None", "45.24S", "072.40W", "10", "CL"],
  ["DESIERTO ATACAMA", "SCAT", "None", "None", "27.16S", "070.46W", "204", "CL"],
  ["BALMACEDA", "SCBA", "None", "85874", "45.55S", "071.40W", "524", "CL"],
  ["EL BELLOTO (MIL)", "SCBL", "None", "85562", "33.02S", "071.25W", "123", "CL"],
  ["BERNADO OHIGGINS", "SCBO", "None", "89059", "63.19S", "056.41W", "10", "CL"],
  ["EL BOSQUE (MIL)", "SCBQ", "None", "85581", "33.34S", "070.40W", "573", "CL"],
  ["CHILE CHICO", "SCCC", "None", "85886", "46.35S", "071.42W", "325", "CL"],
  ["CALAMA/EL LOA", "SCCF", "None", "85432", "22.30S", "068.54W", "2312", "CL"],
  ["CHILLAN/GEN BERN", "SCCH", "None", "85672", "36.34S", "072.01W", "148", "CL"],
  ["PUNTA ARENAS/PRE", "SCCI", "None", "85934", "53.00S", "070.50W", "37", "CL"],
  ["COYHAIQUE/TENIEN", "SCCY", "None", "85864", "45.34S", "072.06W", "311", "CL"],
  ["IQUIQUE/DIEGO AR", "SCDA", "None", "85418", "20.31S", "070.10W", "52", "CL"],
  ["PUDAHUEL/ARTURO", "SCEL", "None", "85574", "33.22S", "070.46W", "476", "CL"],
  ["QUINTERO (MIL)", "SCER", "None", "85543", "32.46S", "071.31W", "8", "CL"],
  ["ANTOFAGASTA/CERR", "SCFA", "None", "85442", "23.25S", "070.25W", "120", "CL"],
  ["CAPT FUENTES MAR", "SCFM", "None", "None", "53.15S", "070.19W", "30", "CL"],
  ["FUTALEUFU", "SCFT", "None", "85832", "43.10S", "071.51W", "318", "CL"],
  ["MARIA DOLORES", "SCGE", "None", "85703", "37.23S", "072.25W", "114", "CL"],
  ["GUARDIAMARINA", "SCGZ", "None", "None", "54.56S", "067.38W", "27", "CL"],
  ["COPIAPO/CHAMONAT", "SCHA", "None", "85470", "27.18S", "070.25W", "291", "CL"],
  ["COCHRANE", "SCHR", "None", "85892", "47.13S", "072.32W", "167", "CL"],
  ["CURICO/GEN FREIR", "SCIC", "None", "85629", "34.58S", "071.13W", "242", "CL"],
  ["CONCEPCION/CARRI", "SCIE", "None", "85682", "36.46S", "073.04W", "16", "CL"],
  ["EASTER ISLAND", "SCIP", "None", "85469", "27.10S", "109.26W", "69", "CL"],
  ["ROBINSON CRUSOE", "SCIR", "None", "85585", "33.40S", "078.56W", "29", "CL"],
  ["OSORNO/CANAL BAJ", "SCJO", "None", "85782", "40.36S", "073.02W", "65", "CL"],
  ["VALLENAR", "SCLL", "None", "85486", "28.36S", "070.46W", "538", "CL"],
  ["MELINKA ARPT", "SCMK", "None", "None", "43.54S", "073.44W", "11", "CL"],
  ["TENIENTE GALLARD", "SCNT", "None", "None", "51.40S", "072.32W", "67", "CL"],
  ["QUELLON", "SCON", "None", "85831", "43.07S", "073.37W", "3", "CL"],
  ["MONOPULLI", "SCPQ", "None", "None", "42.20S", "073.43W", "5", "CL"],
  ["TEMUCO", "SCQP", "None", "None", "38.55S", "072.39W", "97", "CL"],
  ["CHANARAL", "SCRA", "None", "85460", "26.19S", "070.37W", "30", "CL"],
  ["RODELILLO", "SCRD", "None", "None", "33.04S", "071.33W", "336", "CL"],
  ["DE LA INDEPENDEN", "SCRG", "None", "85608", "34.10S", "070.46W", "441", "CL"],
  ["TENIENTE R MARSH", "SCRM", "None", "None", "62.11S", "058.59W", "45", "CL"],
  ["LA SERENA/LAFLOR", "SCSE", "None", "85488", "29.55S", "071.12W", "146", "CL"],
  ["SANTO DOMINGO", "SCSN", "None", "85586", "33.38S", "071.37W", "75", "CL"],
  ["SEGUNDO CORRAL A", "SCSR", "None", "None", "42.04S", "071.52W", "366", "CL"],
  ["CASTRO/GAMBOA", "SCST", "None", "85825", "42.28S", "073.46W", "44", "CL"],
  ["EULOGIO SANCHEZ", "SCTB", "None", "85580", "33.27S", "070.32W", "649", "CL"],
  ["TEMUCO/MAQUEHUE", "SCTC", "None", "85743", "38.45S", "072.37W", "120", "CL"],
  ["PUERTO MONTT/TEP", "SCTE", "None", "85799", "41.25S", "073.04W", "86", "CL"],
  ["LOS CERRILLOS", "SCTI", "None", "85579", "33.28S", "070.42W", "511", "CL"],
  ["CHAITEN", "SCTN", "None", "85830", "42.55S", "072.42W", "4", "CL"],
  ["VALDIVIA/PICHOY", "SCVD", "None", "85766", "39.39S", "073.04W", "14", "CL"],
  ["VINA DEL MAR", "SCVM", "None", "None", "32.57S", "071.29W", "141", "CL"],
  ["CONCORDIA/PIERRE", "SAAC", "None", "87395", "31.18S", "058.01W", "38", "AR"],
  ["GUALEGUAYCHU ARP", "SAAG", "None", "87497", "33.00S", "058.37W", "21", "AR"],
  ["JUNIN AIRPORT", "SAAJ", "None", "87548", "34.32S", "060.57W", "81", "AR"],
  ["PARANA/GEN URQUI", "SAAP", "None", "87374", "31.46S", "060.28W", "78", "AR"],
  ["ROSARIO AIRPORT", "SAAR", "None", "87480", "32.55S", "060.46W", "25", "AR"],
  ["VILLAGUAY", "SAAU", "None", "87385", "31.51S", "059.04W", "43", "AR"],
  ["SAUCE VIEJO AIRP", "SAAV", "None", "87371", "31.41S", "060.49W", "18", "AR"],
  ["BUENOS AIRES (OB", "SABA", "None", "87585", "34.34S", "058.28W", "25", "AR"],
  ["AEROPARQUE(CIV/M", "SABE", "None", "87582", "34.34S", "058.25W", "6", "AR"],
  ["LA CUMBRE", "SACC", "None", "None", "31.00S", "064.32W", "1138", "AR"],
  ["PILAR OBSERVATOR", "SACI", "None", "87349", "31.40S", "063.52W", "338", "AR"],
  ["CORDOBA AIRPORT", "SACO", "None", "87344", "31.19S", "064.13W", "474", "AR"],
  ["CHEPES", "SACP", "None", "87322", "31.19S", "066.35W", "658", "AR"],
  ["MONTE QUEMADO", "SACQ", "None", "87071", "25.45S", "062.52W", "220", "AR"],
  ["GOBERNADOR GORDI", "SACT", "None", "None", "30.22S", "066.17W", "457", "AR"],
  ["VILLA MARIA DEL", "SACV", "None", "87244", "29.53S", "063.40W", "341", "AR"],
  ["DON TORCUATO ARP", "SADD", "None", "87568", "34.28S", "058.37W", "4", "AR"],
  ["SAN FERNANDO", "SADF", "None", "None", "34.27S", "058.35W", "4", "AR"],
  ["MARIANO MORENO", "SADJ", "None", "87572", "34.34S", "058.46W", "28", "AR"],
  ["LA PLATA AIRPORT", "SADL", "None", "87593", "34.58S", "057.53W", "19", "AR"],
  ["BUENOS AIRES/MOR", "SADM", "None", "87574", "34.40S", "058.38W", "30", "AR"],
  ["EL PALOMAR AIRPO", "SADP", "None", "87571", "34.36S", "058.36W", "12", "AR"],
  ["BUENOS AIRES/EZE", "SAEZ", "None", "87576", "34.49S", "058.31W", "20", "AR"],
  ["MENDOZA/EL PLUME", "SAME", "None", "87418", "32.49S", "068.46W", "704", "AR"],
  ["SAN MARTIN", "SAMI", "None", "87416", "33.04S", "068.25W", "653", "AR"],
  ["JACHAL", "SAMJ", "None", "87305", "30.15S", "068.45W", "1165", "AR"],
  ["MALARGUE AIRPORT", "SAMM", "None", "87506", "35.30S", "069.34W", "1425", "AR"],
  ["SAN RAFAEL AIRPO", "SAMR", "None", "87509", "34.34S", "068.24W", "748", "AR"],
  ["SAN CARLOS", "SAMS", "None", "87412", "33.46S", "069.01W", "940", "AR"],
  ["USPALLATA", "SAMU", "None", "87405", "32.36S", "069.19W", "1844", "AR"],
  ["CATAMARCA AIRPOR", "SANC", "None", "87222", "28.36S", "065.46W", "454", "AR"],
  ["SANTIAGO DEL EST", "SANE", "None", "87129", "27.46S", "064.17W", "199", "AR"],
  ["TINOGASTA", "SANI", "None", "87211", "28.04S", "067.34W", "1201", "AR"],
  ["LA RIOJA/CAPT VI", "SANL", "None", "87217", "29.22S", "066.49W", "429", "AR"],
  ["CHILECITO", "SANO", "None", "87214", "29.13S", "067.25W", "950", "AR"],
  ["TUCUMAN/TENIENTE", "SANT", "None", "87121", "26.51S", "065.05W", "450", "AR"],
  ["SAN JUAN AIRPORT", "SANU", "None", "87311", "31.34S", "068.25W", "598", "AR"],
  ["CERES", "SANW", "None", "87257", "29.52S", "061.57W", "88", "AR"],
  ["RIO CUARTO AIRPO", "SAOC", "None", "87453", "33.07S", "064.16W", "421", "AR"],
  ["VILLA DOLORES AR", "SAOD", "None", "87328", "31.56S", "065.07W", "569", "AR"],
  ["LABOULAYE", "SAOL", "None", "87534", "34.07S", "063.22W", "137", "AR"],
  ["MARCOS JUAREZ AR", "SAOM", "None", "87467", "32.42S", "062.08W", "114", "AR"],
  ["VILLA REYNOLDS A", "SAOR", "None", "87448", "33.43S", "065.22W", "486", "AR"],
  ["SAN LUIS AIRPORT", "SAOU", "None", "87436", "33.16S", "066.20W", "702", "AR"],
  ["CORRIENTES AIRPO", "SARC", "None", "87166", "27.26S", "058.46W", "62", "AR"],
  ["RESISTENCIA AIRP", "SARE", "None", "87155", "27.26S", "059.02W", "52", "AR"],
  ["FORMOSA AIRPORT", "SARF", "None", "87162", "26.13S", "058.13W", "60", "AR"],
  ["IGUAZU/CATARATAS", "SARI", "None", "87097", "25.43S", "054.28W", "270", "AR"],
  ["PASO DE LOS LIBR", "SARL", "None", "87289", "29.40S", "057.08W", "70", "AR"],
  ["MONTE CASEROS AR", "SARM", "None", "87393", "30.15S", "057.38W", "54", "AR"],
  ["POSADAS AIRPORT", "SARP", "None", "87178", "27.23S", "055.58W", "125", "AR"],
  ["PRESIDENT R S PE", "SARS", "None", "87149", "26.49S", "060.27W", "92", "AR"]]

/-- `STATIONS` (database/stations.py 5517-5616). -/
noncomputable def stations55 : List StationRow := rows! [
  ["SALTA AIRPORT", "SASA", "None", "87047", "24.51S", "065.28W", "1216", "AR"],
  ["JUJUY AIRPORT", "SASJ", "None", "87046", "24.22S", "065.06W", "1167", "AR"],
  ["ORAN AIRPORT", "SASO", "None", "87016", "23.08S", "064.19W", "357", "AR"],
  ["LA QUIACA OBSERV", "SASQ", "None", "87007", "22.06S", "065.35W", "3462", "AR"],
  ["RIVADAVIA", "SASR", "None", "87065", "24.10S", "062.53W", "205", "AR"],
  ["TARTAGAL AIRPORT", "SAST", "None", "87022", "22.38S", "063.49W", "450", "AR"],
  ["GOYA", "SATG", "None", "None", "29.06S", "059.13W", "38", "AR"],
  ["LAS LOMITAS", "SATK", "None", "87078", "24.41S", "060.34W", "130", "AR"],
  ["MERCEDES", "SATM", "None", "None", "29.13S", "058.04W", "107", "AR"],
  ["RECONQUISTA", "SATR", "None", "None", "29.13S", "059.41W", "48", "AR"],
  ["CURUZU CUATIA AR", "SATU", "None", "87286", "29.46S", "057.58W", "73", "AR"],
  ["EL BOLSON AERO", "SAVB", "None", "87800", "41.58S", "071.31W", "337", "AR"],
  ["COMODORO RIVADAV", "SAVC", "None", "87860", "45.46S", "067.28W", "46", "AR"],
  ["EL MAITEN", "SAVD", "None", "None", "42.01S", "071.10W", "720", "AR"],
  ["ESQUEL AIRPORT", "SAVE", "None", "87803", "42.54S", "071.09W", "794", "AR"],
  ["SAN ANTONIO OEST", "SAVO", "None", "87784", "40.45S", "065.02W", "7", "AR"],
  ["PASO DE INDIOS", "SAVP", "None", "87814", "43.49S", "068.52W", "460", "AR"],
  ["ALTO RIO SENGUER", "SAVR", "None", "None", "45.01S", "070.49W", "697", "AR"],
  ["TRELEW/ALMIRANTE", "SAVT", "None", "87828", "43.12S", "065.16W", "43", "AR"],
  ["VIEDMA/CASTELLO", "SAVV", "None", "87791", "40.51S", "063.01W", "7", "AR"],
  ["EL TEHUELCHE", "SAVY", "None", "None", "42.46S", "065.06W", "136", "AR"],
  ["LAGO ARGENTINO A", "SAWA", "None", "87903", "50.19S", "072.17W", "220", "AR"],
  ["PUERTO DESEADO A", "SAWD", "None", "87896", "47.43S", "065.55W", "80", "AR"],
  ["RIO GRANDE AIRPO", "SAWE", "None", "87934", "53.47S", "067.45W", "22", "AR"],
  ["RIO GALLEGOS ARP", "SAWG", "None", "87925", "51.37S", "069.19W", "19", "AR"],
  ["USHUAIA (ARG-NAV", "SAWH", "None", "87938", "54.51S", "068.18W", "14", "AR"],
  ["SAN JULIAN AIRPO", "SAWJ", "None", "87909", "49.19S", "067.46W", "62", "AR"],
  ["RIO MAYO", "SAWM", "None", "None", "45.42S", "070.15W", "545", "AR"],
  ["PERITO MORENO AR", "SAWP", "None", "87852", "46.31S", "071.01W", "429", "AR"],
  ["GOBERNADOR GREGO", "SAWR", "None", "87880", "48.46S", "070.10W", "356", "AR"],
  ["EL TURBIO/RIO TU", "SAWT", "None", "None", "51.36S", "072.13W", "273", "AR"],
  ["SANTA CRUZ AIRPO", "SAWU", "None", "87912", "50.01S", "068.34W", "111", "AR"],
  ["AZUL AIRPORT", "SAZA", "None", "87642", "36.45S", "059.49W", "132", "AR"],
  ["BAHIA BLANCA (MI", "SAZB", "None", "87750", "38.43S", "062.10W", "83", "AR"],
  ["DOLORES AIRPORT", "SAZD", "None", "87648", "36.21S", "057.43W", "9", "AR"],
  ["PIGUE AIRPORT", "SAZE", "None", "87679", "37.36S", "062.22W", "304", "AR"],
  ["GENERAL PICO ARP", "SAZG", "None", "87532", "35.42S", "063.45W", "145", "AR"],
  ["TRES ARROYOS", "SAZH", "None", "87688", "38.19S", "060.15W", "115", "AR"],
  ["BOLIVAR", "SAZI", "None", "87639", "36.11S", "061.05W", "94", "AR"],
  ["MAR DEL PLATA AR", "SAZM", "None", "87692", "37.55S", "057.34W", "21", "AR"],
  ["NEUQUEN AIRPORT", "SAZN", "None", "87715", "38.57S", "068.09W", "271", "AR"],
  ["NECOCHEA AIRPORT", "SAZO", "None", "87758", "38.28S", "058.49W", "32", "AR"],
  ["PEHUAJO/CMDR ZAN", "SAZP", "None", "87544", "35.52S", "061.53W", "86", "AR"],
  ["RIO COLORADO", "SAZQ", "None", "87736", "39.01S", "064.04W", "79", "AR"],
  ["SANTA ROSA AIRPO", "SAZR", "None", "87623", "36.34S", "064.16W", "191", "AR"],
  ["SAN CARLOS BARIL", "SAZS", "None", "87765", "41.08S", "071.10W", "840", "AR"],
  ["TANDIL AIRPORT", "SAZT", "None", "87645", "37.13S", "059.15W", "175", "AR"],
  ["VILLA GESELL", "SAZV", "None", "87663", "37.13S", "057.01W", "7", "AR"],
  ["CHAPELCO", "SAZY", "None", "87761", "40.04S", "071.07W", "779", "AR"],
  ["STANLEY AIRPORT", "SFAL", "None", "88891", "51.40S", "057.46W", "23", "FK"],
  ["MOUNT PLEASANT", "EGYP", "None", "88889", "51.49S", "058.27W", "74", "FK"],
  ["JOHAN A. PENGEL", "SMJP", "None", "None", "05.27N", "055.10W", "16", "SR"],
  ["NICKERIE FERNAND", "SMNI", "None", "None", "05.57N", "057.02W", "10", "SR"],
  ["SIPALIWINI", "SMSI", "None", "81251", "02.01N", "056.07W", "265", "SR"],
  ["STOELMANSEILAND", "SMST", "None", "81209", "04.20N", "054.25W", "52", "SR"],
  ["TAFELBERG/RUDI K", "SMTB", "None", "81250", "03.46N", "056.08W", "323", "SR"],
  ["PARAMARIBO", "SMZO", "None", "None", "05.49N", "055.11W", "10", "SR"],
  ["ZANDERY/PARAMARI", "SMZY", "None", "81225", "05.27N", "055.12W", "15", "SR"],
  ["AASIAAT/EGEDESMI", "BGAA", "None", "None", "68.42N", "052.48W", "41", "GL"],
  ["ANGMAGSSALIK", "BGAM", "None", "04360", "65.35N", "037.37W", "52", "GL"],
  ["ANGISSOQ (AUT)", "BGAS", "None", "04285", "59.58N", "045.12W", "16", "GL"],
  ["APUTITEQ ADS (AU", "BGAT", "None", "04351", "67.46N", "032.16W", "23", "GL"],
  ["NARSSARSSUAQ", "BGBW", "None", "04270", "61.10N", "045.25W", "26", "GL"],
  ["CHRISTIANHAB(POR", "BGCH", "None", "None", "68.45N", "051.30W", "76", "GL"],
  ["CONSTABLE POINT", "BGCO", "None", "04341", "70.44N", "022.39W", "10", "GL"],
  ["DANEBORG (AUT)", "BGDB", "None", "04330", "74.17N", "020.13W", "44", "GL"],
  ["DANMARKSHAVN (PO", "BGDH", "None", "04320", "76.46N", "018.40W", "12", "GL"],
  ["DUNDAS", "BGDU", "None", "None", "76.30N", "069.00W", "20", "GL"],
  ["EGEDESMINDE/AUSI", "BGEM", "None", "04220", "68.42N", "052.45W", "47", "GL"],
  ["FREDERIKSDAL", "BGFD", "None", "None", "60.15N", "045.30W", "23", "GL"],
  ["FREDERIKSHAB (PO", "BGFH", "None", "04260", "62.00N", "049.43W", "16", "GL"],
  ["GRONNEDAL", "BGGD", "None", "04261", "61.13N", "048.07W", "29", "GL"],
  ["GODTHAB (PORT)", "BGGH", "None", "04250", "64.12N", "051.41W", "70", "GL"],
  ["GODHAVN (PORT)", "BGGN", "None", "None", "69.19N", "053.34W", "24", "GL"],
  ["HOLSTEINSBORG", "BGHB", "None", "04230", "66.55N", "053.40W", "9", "GL"],
  ["JULIANEHAB (PORT", "BGJH", "None", "04272", "60.43N", "046.02W", "34", "GL"],
  ["JAKOBSHAVN (PORT", "BGJN", "None", "04221", "69.15N", "051.04W", "25", "GL"],
  ["KULUSUK AIRPORT", "BGKK", "None", "04361", "65.34N", "037.08W", "34", "GL"],
  ["CAPE TOBIN (AUT)", "BGKT", "None", "04340", "70.25N", "021.58W", "41", "GL"],
  ["MANIITSOQ", "BGMQ", "None", "None", "65.25N", "052.56W", "15", "GL"],
  ["MESTERS VIG", "BGMV", "None", "None", "72.15N", "024.19W", "10", "GL"],
  ["NANORTALIK", "BGNN", "None", "None", "60.31N", "045.45W", "20", "GL"],
  ["NARSSAQ", "BGNS", "None", "None", "61.00N", "046.00W", "30", "GL"],
  ["QAANAAQ", "BGQQ", "None", "None", "77.29N", "069.23W", "19", "GL"],
  ["PRINS CHRISTIAN", "BGPC", "None", "04390", "60.01N", "043.07W", "19", "GL"],
  ["PAAMIUT", "BGPT", "None", "None", "62.01N", "049.40W", "2", "GL"],
  ["SCORESBYSUND", "BGSC", "None", "04339", "70.28N", "021.58W", "66", "GL"],
  ["SONDRE STROMFJOR", "BGSF", "None", "04231", "67.00N", "050.43W", "53", "GL"],
  ["SISIMIUT", "BGSS", "None", "None", "66.57N", "053.44W", "50", "GL"],
  ["SUKKERTOPPEN", "BGST", "None", "None", "65.25N", "053.00W", "24", "GL"],
  ["THULE AB", "BGTL", "None", "04202", "76.32N", "068.42W", "77", "GL"],
  ["TINGMIARMIUT", "BGTM", "None", "None", "62.25N", "042.15W", "10", "GL"],
  ["UPERNAVIK", "BGUK", "None", "None", "72.47N", "056.08W", "127", "GL"],
  ["UUMMANNAQ/QAARSU", "BGUQ", "None", "None", "70.44N", "052.42W", "2", "GL"],
  ["UPERNAVIK AWS (A", "BGUP", "None", "04209", "72.46N", "056.10W", "63", "GL"],
  ["WALRUS BAY", "None", "None", "04342", "70.30N", "021.58W", "7", "GL"],
  ["IKATEQ", "BIKA", "None", "04353", "65.56N", "036.41W", "56", "GL"],
  ["MARRAK POINT", "BMKA", "None", "04255", "63.26N", "051.11W", "41", "GL"],
  ["AKUREYRI", "BIAR", "None", "04063", "65.40N", "018.04W", "27", "IS"],
  ["BILDUDALUR", "BIBD", "None", "None", "65.38N", "023.33W", "6", "IS"]]

/-- `STATIONS` (database/stations.py 5617-5716). -/
noncomputable def stations56 : List StationRow := rows! [
  ["EGILSSTADIR", "BIEG", "None", "04089", "65.16N", "014.24W", "38", "IS"],
  ["GRIMSEY ISLAND", "BIGR", "None", "04065", "66.31N", "018.01W", "16", "IS"],
  ["HJARDARNES/HORNA", "BIHN", "None", "04082", "64.18N", "015.14W", "7", "IS"],
  ["ISAFJOROUR", "BIIS", "None", "None", "66.03N", "023.08W", "3", "IS"],
  ["KEFLAVIK (CIV/MI", "BIKF", "None", "04018", "63.59N", "022.36W", "54", "IS"],
  ["SAUOARKROKUR", "BIKR", "None", "None", "65.44N", "019.34W", "3", "IS"],
  ["RAUFARHOFN", "BIRG", "None", "04077", "66.27N", "015.56W", "10", "IS"],
  ["REYKJAVIK (NOTAM", "BIRK", "None", "04030", "64.08N", "021.56W", "61", "IS"],
  ["STYKKISHOLMUR", "BIST", "None", "04013", "65.04N", "022.43W", "8", "IS"],
  ["VESTMANNAEYJAR (", "BIVM", "None", "04048", "63.25N", "020.16W", "124", "IS"],
  ["SKJALDTHINGSSTAD", "BIVO", "None", "04085", "65.45N", "014.49W", "48", "IS"],
  ["HVALLATUR", "None", "None", "04001", "65.32N", "024.28W", "17", "IS"],
  ["ANTWERP/DEURNE", "EBAW", "None", "06450", "51.12N", "004.28E", "14", "BE"],
  ["BEAUVECHAIN (BAF", "EBBE", "None", "06458", "50.45N", "004.46E", "127", "BE"],
  ["KLEINE-BROGEL(BA", "EBBL", "None", "06479", "51.10N", "005.28E", "64", "BE"],
  ["BRUSSELS NATIONA", "EBBR", "None", "06451", "50.54N", "004.30E", "58", "BE"],
  ["BRASSCHAAT (MIL)", "EBBT", "None", "06452", "51.19N", "004.30E", "23", "BE"],
  ["BERTRIX (BEL-AFB", "EBBX", "None", "06467", "49.53N", "005.13E", "461", "BE"],
  ["CHARLEROI/GOSSEL", "EBCI", "None", "06449", "50.28N", "004.27E", "192", "BE"],
  ["CHIEVRES AB", "EBCV", "None", "06432", "50.34N", "003.49E", "63", "BE"],
  ["SCHAFFEN", "EBDT", "None", "06465", "51.01N", "005.04E", "54", "BE"],
  ["KOKSIJDE (BEL-AF", "EBFN", "None", "06400", "51.04N", "002.38E", "9", "BE"],
  ["FLORENNES (BEL-A", "EBFS", "None", "06456", "50.13N", "004.39E", "299", "BE"],
  ["GRIMBERGEN", "EBGB", "None", "None", "50.57N", "004.24E", "21", "BE"],
  ["HOEVENEN", "EBHN", "None", "None", "51.18N", "004.23E", "3", "BE"],
  ["BALEN-KEIHEUVEL", "EBKH", "None", "None", "51.11N", "005.13E", "40", "BE"],
  ["KORTRIJK", "EBKT", "None", "None", "50.49N", "003.12E", "20", "BE"],
  ["ELSENBORN (MIL)", "EBLB", "None", "06496", "50.28N", "006.10E", "570", "BE"],
  ["BIERSET/LIEGE (C", "EBLG", "None", "06478", "50.38N", "005.27E", "178", "BE"],
  ["BIERSET/LIEGE (M", "EBLH", "None", "None", "50.38N", "005.27E", "178", "BE"],
  ["MELSBROEK (BEL-A", "EBMB", "None", "06448", "50.53N", "004.30E", "55", "BE"],
  ["OOSTENDE AIRPORT", "EBOS", "None", "06407", "51.12N", "002.52E", "5", "BE"],
  ["SPA/LA SAUVENIER", "EBSP", "None", "06490", "50.28N", "005.55E", "482", "BE"],
  ["ST. TRUIDEN (BAF", "EBST", "None", "06470", "50.47N", "005.12E", "75", "BE"],
  ["SAINT HUBERT", "EBSH", "None", "None", "50.01N", "005.24E", "588", "BE"],
  ["SAINT HUBERT (MI", "EBSU", "None", "06476", "50.01N", "005.24E", "557", "BE"],
  ["SEMMERZAKE (MIL)", "EBSZ", "None", "06428", "50.56N", "003.39E", "37", "BE"],
  ["GOETSENHOVEN (MI", "EBTN", "None", "06463", "50.46N", "004.57E", "81", "BE"],
  ["MAUBRAY", "EBTY", "None", "None", "50.32N", "003.30E", "49", "BE"],
  ["WEELDE (MIL)", "EBWE", "None", "06462", "51.25N", "005.00E", "60", "BE"],
  ["BRUSSELS (MIL)", "EBWM", "None", "None", "50.53N", "004.31E", "58", "BE"],
  ["HASSELT KIVIT", "EBZH", "None", "None", "50.58N", "005.23E", "43", "BE"],
  ["GENK/ZWARTBERG", "EBZW", "None", "06481", "51.01N", "005.32E", "63", "BE"],
  ["UCCLE/UKKLE", "None", "None", "06447", "50.48N", "004.21E", "100", "BE"],
  ["GENT/INDUSTRY ZO", "EBGT", "None", "06431", "51.11N", "003.48E", "13", "BE"],
  ["MUNTE (MIL)", "EBMT", "None", "None", "50.55N", "003.43E", "60", "BE"],
  ["ALTENBURG-NOBITZ", "EDAC", "AOC", "None", "50.59N", "012.30E", "195", "DE"],
  ["DESSAU", "EDAD", "None", "None", "51.50N", "012.11E", "57", "DE"],
  ["HERINGSDORF", "EDAH", "None", "None", "53.52N", "014.09E", "28", "DE"],
  ["BERLIN/TEMPLEHO", "EDBB", "None", "None", "52.28N", "013.24E", "49", "DE"],
  ["COCHSTEDT ARPT", "EDBC", "None", "None", "51.51N", "011.25E", "181", "DE"],
  ["MAGDEBURG", "EDBM", "None", "None", "52.06N", "011.35E", "82", "DE"],
  ["ALLSTEDT", "EDBT", "None", "None", "51.23N", "011.27E", "284", "DE"],
  ["PAROW", "EDCP", "None", "10181", "54.22N", "013.04E", "4", "DE"],
  ["BERLIN/SCHONEFEL", "EDDB", "None", "10385", "52.23N", "013.32E", "48", "DE"],
  ["DRESDEN/KLOTZSCH", "EDDC", "None", "10488", "51.08N", "013.45E", "226", "DE"],
  ["ERFURT/BINDERSLE", "EDDE", "None", "10554", "50.59N", "010.58E", "323", "DE"],
  ["FRANKFURT MAIN A", "EDDF", "None", "10637", "50.03N", "008.36E", "113", "DE"],
  ["MUENSTER/OSNABRU", "EDDG", "None", "10315", "52.08N", "007.42E", "52", "DE"],
  ["HAMBURG/FUHLSBUT", "EDDH", "None", "10147", "53.38N", "010.00E", "16", "DE"],
  ["BERLIN/TEMPELHOF", "EDDI", "None", "10384", "52.28N", "013.24E", "49", "DE"],
  ["KOELN/BONN", "EDDK", "None", "10513", "50.52N", "007.09E", "99", "DE"],
  ["DUESSELDORF", "EDDL", "None", "10400", "51.18N", "006.46E", "44", "DE"],
  ["MUNICH-FLUGHAFEN", "EDDM", "None", "10870", "48.21N", "011.49E", "447", "DE"],
  ["NUERNBERG", "EDDN", "None", "10763", "49.30N", "011.05E", "312", "DE"],
  ["LEIPZIG/SCHKEUDI", "EDDP", "None", "10469", "51.26N", "012.14E", "149", "DE"],
  ["SAARBRUECKEN", "EDDR", "None", "10708", "49.13N", "007.06E", "320", "DE"],
  ["STUTTGART/ECHTER", "EDDS", "None", "10738", "48.40N", "009.13E", "419", "DE"],
  ["BERLIN/TEGEL (FA", "EDDT", "None", "10382", "52.34N", "013.19E", "37", "DE"],
  ["HANNOVER", "EDDV", "None", "10338", "52.28N", "009.41E", "54", "DE"],
  ["BREMEN", "EDDW", "None", "10224", "53.02N", "008.48E", "5", "DE"],
  ["BABENHAUSEN(USA", "EDEF", "None", "10643", "49.57N", "008.58E", "131", "DE"],
  ["BAUMHOLDER (USA", "EDEK", "None", "10619", "49.38N", "007.17E", "426", "DE"],
  ["EGELSBACH", "EDFE", "None", "None", "49.58N", "008.38E", "118", "DE"],
  ["HAHN", "EDFH", "None", "10616", "49.57N", "007.16E", "498", "DE"],
  ["MANNHEIM", "EDFM", "None", "10729", "49.31N", "008.33E", "100", "DE"],
  ["SIEGERLAND", "EDGS", "None", "None", "50.42N", "008.05E", "602", "DE"],
  ["ITZEHOE", "EDHF", "None", "10142", "54.00N", "009.34E", "26", "DE"],
  ["HAMBURG/FINKENWE", "EDHI", "None", "10149", "53.32N", "009.50E", "13", "DE"],
  ["KIEL/HOLTENAU CI", "EDHK", "None", "None", "54.23N", "010.09E", "31", "DE"],
  ["LUEBECK/BLANKENS", "EDHL", "None", "10156", "53.48N", "010.43E", "16", "DE"],
  ["GIESSEN (USA-HP", "EDIA", "None", "10533", "50.36N", "008.43E", "152", "DE"],
  ["ILLESHEIM (USAF)", "EDIK", "None", "10752", "49.28N", "010.23E", "325", "DE"],
  ["FEUCHT (USA-AF)", "EDIG", "None", "10764", "49.23N", "011.11E", "386", "DE"],
  ["HOHENFELS (USAF)", "EDIH", "None", "10775", "49.13N", "011.49E", "442", "DE"],
  ["MEMMINGEN ALLGAU", "EDJA", "None", "None", "47.59N", "010.14E", "633", "DE"],
  ["MONCHENGLADBACH", "EDLN", "None", "None", "51.14N", "006.30E", "38", "DE"],
  ["PADERBORN/LIPPST", "EDLP", "None", "10426", "51.37N", "008.37E", "213", "DE"],
  ["NIEDERRHEIN", "EDLV", "None", "None", "51.36N", "006.09E", "32", "DE"],
  ["DORTMUND/WICKEDE", "EDLW", "None", "10416", "51.31N", "007.37E", "127", "DE"],
  ["AUGSBURG/MULHAUS", "EDMA", "None", "10852", "48.25N", "010.55E", "463", "DE"],
  ["OBERPFAFFENHOFEN", "EDMO", "None", "None", "48.04N", "011.16E", "600", "DE"],
  ["FRIEDRICHSHAFEN", "EDNY", "None", "10935", "47.40N", "009.31E", "424", "DE"],
  ["SCHWERIN-PARCHIM", "EDOP", "None", "None", "53.26N", "011.47E", "51", "DE"],
  ["NEUHAUSEN OB EC", "EDPH", "None", "10921", "47.58N", "008.54E", "794", "DE"],
  ["BAYREUTH", "EDQD", "None", "10677", "49.58N", "011.37E", "498", "DE"],
  ["HOF", "EDQM", "None", "10685", "50.18N", "011.51E", "568", "DE"],
  ["ZWEIBRUCKEN", "EDRZ", "None", "None", "49.13N", "007.24E", "344", "DE"],
  ["KARLSRUHE/BADEN", "EDSB", "FKB", "None", "48.47N", "008.05E", "124", "DE"],
  ["DONAUESCHINGEN", "EDTD", "None", "None", "47.58N", "008.31E", "680", "DE"]]

/-- `STATIONS` (database/stations.py 5717-5816). -/
noncomputable def stations57 : List StationRow := rows! [
  ["LAHR (CAN-AFB)", "EDTL", "None", "None", "48.22N", "007.50E", "156", "DE"],
  ["SCHWAEBISCH HALL", "EDTY", "None", "None", "49.07N", "009.47E", "400", "DE"],
  ["KONSTANZ", "EDTZ", "None", "10929", "47.41N", "009.11E", "447", "DE"],
  ["BRAUNSCHWEIG", "EDVE", "None", "10348", "52.19N", "010.33E", "88", "DE"],
  ["KASSEL/CALDEN", "EDVK", "None", "10436", "51.23N", "009.22E", "285", "DE"],
  ["LEMWERDER", "EDWD", "None", "None", "53.08N", "008.37E", "30", "DE"],
  ["EMDEN-KOENIGSPO", "EDWE", "None", "10200", "53.23N", "007.14E", "5", "DE"],
  ["WESTERLAND/SYLT", "EDXW", "None", "10018", "54.55N", "008.20E", "20", "DE"],
  ["ESSEN/MULHEIM", "EDZE", "None", "10410", "51.24N", "006.58E", "161", "DE"],
  ["SPANGDAHLEM (USA", "ETAD", "None", "10607", "49.59N", "006.42E", "365", "DE"],
  ["RAMSTEIN (USAFB)", "ETAR", "None", "10614", "49.25N", "007.35E", "238", "DE"],
  ["PIRNA-PRATZSCHWI", "EDAR", "None", "None", "50.59N", "013.55E", "400", "DE"],
  ["SEMBACH (USAFB)", "ETAS", "None", "10712", "49.30N", "007.52E", "321", "DE"],
  ["SEMBACH (USAFB)", "EDAS", "None", "None", "49.30N", "007.52E", "321", "DE"],
  ["AACHEN/MERZBRUCK", "ETBA", "None", "10503", "50.49N", "006.10E", "191", "DE"],
  ["BUTZWEILERHOF (B", "ETBB", "None", "10509", "50.58N", "006.54E", "49", "DE"],
  ["KATTERBACH (USA-", "ETEB", "None", "10755", "49.19N", "010.37E", "467", "DE"],
  ["BAD KREUZNACH AA", "ETEH", "None", "10627", "49.51N", "007.52E", "103", "DE"],
  ["GIEBELSTADT(USA-", "ETEU", "None", "10653", "49.38N", "009.58E", "298", "DE"],
  ["BERGEN (MIL)", "ETGB", "None", "10238", "52.49N", "009.55E", "69", "DE"],
  ["MEIERWIK", "ETGG", "None", "10033", "54.50N", "009.30E", "33", "DE"],
  ["IDAR-OBERSTEIN(M", "ETGI", "None", "10618", "49.42N", "007.19E", "377", "DE"],
  ["KUEMMERSBRUCK", "ETGK", "None", "10771", "49.26N", "011.54E", "418", "DE"],
  ["MEPPEN (MIL)", "ETGM", "None", "10304", "52.43N", "007.19E", "26", "DE"],
  ["ROTENBURG", "ETGQ", "None", "None", "53.08N", "009.21E", "61", "DE"],
  ["WITTSTOCK", "ETGW", "None", "10272", "53.12N", "012.31E", "74", "DE"],
  ["KALKAR (MIL COMM", "ETGY", "None", "10404", "51.45N", "006.16E", "43", "DE"],
  ["MESSSTETTEN", "ETGZ", "None", "10827", "48.11N", "009.00E", "920", "DE"],
  ["ALTENSTADT/SCHON", "ETHA", "None", "10954", "47.49N", "010.52E", "760", "DE"],
  ["BUCKEBURG(GER-AR", "ETHB", "None", "10335", "52.16N", "009.04E", "78", "DE"],
  ["CELLE (GER-ARMY)", "ETHC", "None", "10343", "52.36N", "010.01E", "52", "DE"],
  ["RHEINE/BENTLAGE", "ETHE", "None", "10306", "52.17N", "007.22E", "49", "DE"],
  ["FRITZLAR (GER-AR", "ETHF", "None", "10439", "51.07N", "009.16E", "181", "DE"],
  ["ITZEHOE (GER-ARM", "ETHI", "None", "None", "54.00N", "009.34E", "26", "DE"],
  ["LAUPHEIM (GER-AR", "ETHL", "None", "10837", "48.13N", "009.55E", "549", "DE"],
  ["MENDIG (GER-ARMY", "ETHM", "None", "10514", "50.22N", "007.19E", "191", "DE"],
  ["NIEDERSTETTEN (G", "ETHN", "None", "10743", "49.23N", "009.58E", "473", "DE"],
  ["ROTH (GER-ARMY)", "ETHR", "None", "10765", "49.13N", "011.05E", "395", "DE"],
  ["FASSBERG (GER-AF", "ETHS", "None", "10246", "52.55N", "010.11E", "88", "DE"],
  ["COTTBUS (FLUGPLA", "ETHT", "None", "10492", "51.46N", "014.18E", "67", "DE"],
  ["GRAFENWOEHR", "ETIC", "None", "10687", "49.42N", "011.56E", "415", "DE"],
  ["HANAU (USA-AF)", "ETID", "None", "10642", "50.10N", "008.58E", "112", "DE"],
  ["HEIDELBERG (USA-", "ETIE", "None", "10734", "49.23N", "008.39E", "109", "DE"],
  ["HOHENFELS (USA-A", "ETIH", "None", "None", "49.13N", "011.49E", "442", "DE"],
  ["ILLESHEIM (USA-A", "ETIK", "None", "None", "49.28N", "010.22E", "325", "DE"],
  ["KITZINGEN (USA-A", "ETIN", "None", "10659", "49.45N", "010.11E", "210", "DE"],
  ["EGGEBEK (GER-NAV", "ETME", "None", "10034", "54.37N", "009.20E", "22", "DE"],
  ["KIEL/HOLTENAU(GN", "ETMK", "None", "10046", "54.23N", "010.09E", "31", "DE"],
  ["NORDHOLZ (GER-NA", "ETMN", "None", "10136", "53.46N", "008.40E", "31", "DE"],
  ["AHLHORN (GER-AFB", "ETNA", "None", "10218", "52.53N", "008.14E", "45", "DE"],
  ["DIEPHOLZ (GER-AF", "ETND", "None", "10321", "52.35N", "008.21E", "43", "DE"],
  ["GEILENKIRCHEN(NA", "ETNG", "None", "10500", "50.58N", "006.02E", "98", "DE"],
  ["HOHN (GER-AFB)", "ETNH", "None", "10038", "54.19N", "009.33E", "17", "DE"],
  ["JEVER (GER-AFB)", "ETNJ", "None", "10122", "53.31N", "007.52E", "21", "DE"],
  ["LAAGE", "ETNL", "None", "10172", "53.55N", "012.16E", "40", "DE"],
  ["NOERVENICH (GAF)", "ETNN", "None", "10502", "50.49N", "006.40E", "135", "DE"],
  ["HOPSTEN (GER-AFB", "ETNP", "None", "10314", "52.19N", "007.32E", "43", "DE"],
  ["SCHLESWIG(GER-NA", "ETNS", "None", "10037", "54.28N", "009.31E", "25", "DE"],
  ["WITTMUNDHAVEN(GA", "ETNT", "None", "10126", "53.32N", "007.40E", "12", "DE"],
  ["TROLLENHAGEN", "ETNU", "None", "10281", "53.36N", "013.19E", "71", "DE"],
  ["WUNSTORF (GER-AF", "ETNW", "None", "10334", "52.27N", "009.25E", "70", "DE"],
  ["COLEMAN (USA-AF)", "ETOR", "None", "10728", "49.34N", "008.28E", "94", "DE"],
  ["WIESBADEN (USA-A", "ETOU", "None", "10633", "50.02N", "008.19E", "141", "DE"],
  ["LANDSBERG (GER-A", "ETSA", "None", "10857", "48.04N", "010.54E", "628", "DE"],
  ["BUECHEL", "ETSB", "None", "10613", "50.10N", "007.04E", "486", "DE"],
  ["ERDING (GER-AFB)", "ETSE", "None", "10869", "48.19N", "011.56E", "467", "DE"],
  ["FUERSTENFELDBRUC", "ETSF", "None", "10858", "48.12N", "011.16E", "535", "DE"],
  ["HOLZDORF", "ETSH", "None", "10476", "51.46N", "013.10E", "79", "DE"],
  ["INGOLSTADT(GER-M", "ETSI", "None", "10860", "48.43N", "011.31E", "370", "DE"],
  ["LECHFELD (GER-AF", "ETSL", "None", "10856", "48.10N", "010.52E", "562", "DE"],
  ["MEMMINGEN (GER-A", "ETSM", "None", "10947", "47.58N", "010.13E", "644", "DE"],
  ["NEUBURG/DONAU", "ETSN", "None", "10853", "48.43N", "011.13E", "387", "DE"],
  ["PFERDSFELD (GER-", "ETSP", "None", "10626", "49.51N", "007.35E", "396", "DE"],
  ["LAARBRUCH (RAF)", "ETUL", "None", "10405", "51.36N", "006.09E", "31", "DE"],
  ["NORDHORN RANGE", "ETUN", "None", "10308", "52.27N", "007.10E", "26", "DE"],
  ["GUETERSLOH (RAF)", "ETUO", "None", "10320", "51.47N", "008.18E", "72", "DE"],
  ["BRUGGEN (RAF)", "ETUR", "None", "10401", "51.12N", "006.07E", "76", "DE"],
  ["MEPPEN", "ETWM", "None", "None", "52.43N", "007.20E", "21", "DE"],
  ["MUENSTER/OSNABRU", "EDLG", "None", "None", "52.07N", "007.42E", "52", "DE"],
  ["MUNICH-RIEM EDDM", "None", "None", "10866", "48.07N", "011.41E", "529", "DE"],
  ["HANNOVER", "EDVV", "None", "None", "52.28N", "009.41E", "54", "DE"],
  ["ESSEN", "EDLE", "None", "None", "51.24N", "006.58E", "161", "DE"],
  ["BERGEN/HOHNE", "EDZB", "None", "None", "52.49N", "009.55E", "70", "DE"],
  ["IDAR/OBERSTEIN", "EDZJ", "None", "None", "49.42N", "007.19E", "377", "DE"],
  ["GAERMERSDORF", "EDZH", "None", "None", "49.25N", "011.54E", "419", "DE"],
  ["MENDIG (GER-ARM", "EDPN", "None", "None", "50.22N", "007.19E", "191", "DE"],
  ["GRAFENWOHR (USA", "EDIC", "None", "None", "49.42N", "011.56E", "415", "DE"],
  ["KIEL/HOLTENAU(G", "EDCK", "None", "None", "54.22N", "010.09E", "31", "DE"],
  ["NORVENICH (GER-", "EDNN", "None", "None", "50.49N", "006.40E", "135", "DE"],
  ["BERLIN/SCHONEFE", "ETBS", "None", "None", "52.22N", "013.31E", "48", "DE"],
  ["SCHLESWIG", "None", "None", "10035", "54.32N", "009.33E", "48", "DE"],
  ["GREIFSWALD", "None", "None", "10184", "54.06N", "013.23E", "2", "DE"],
  ["LINDENBERG", "None", "None", "10393", "52.13N", "014.07E", "115", "DE"],
  ["OPIN", "None", "None", "10468", "51.32N", "012.04E", "106", "DE"],
  ["WAHNSDORF", "None", "None", "10486", "51.07N", "013.41E", "246", "DE"],
  ["MEININGEN", "None", "None", "10548", "50.34N", "010.22E", "450", "DE"],
  ["CHEMNITZ", "None", "None", "10577", "50.48N", "012.52E", "419", "DE"],
  ["STUTTGART/SCHNAR", "None", "None", "10739", "48.50N", "009.12E", "315", "DE"],
  ["MUENCHEN/OBERSCH", "None", "None", "10868", "48.15N", "011.35E", "484", "DE"],
  ["HOHENPEISSENBERG", "None", "None", "10962", "47.48N", "011.01E", "986", "DE"]]

/-- `STATIONS` (database/stations.py 5817-5916). -/
noncomputable def stations58 : List StationRow := rows! [
  ["FURSTENZELL", "None", "None", "10895", "48.33N", "013.21E", "480", "DE"],
  ["KARDLA", "EEKA", "None", "26116", "58.59N", "022.50E", "4", "EE"],
  ["KURESSAARE", "EEKE", "None", "None", "58.14N", "022.31E", "4", "EE"],
  ["PARNU", "EEPU", "None", "None", "58.25N", "024.28E", "14", "EE"],
  ["TALLINN", "EETN", "None", "26038", "59.24N", "024.49E", "40", "EE"],
  ["TARTU", "EETU", "None", "None", "58.19N", "026.41E", "67", "EE"],
  ["ENONTEKIO", "EFET", "None", "None", "68.22N", "023.26E", "306", "FI"],
  ["HALLI (FIN-AFB)", "EFHA", "None", "02945", "61.51N", "024.48E", "145", "FI"],
  ["HELSINKI/MALMI", "EFHF", "None", "02975", "60.15N", "025.03E", "28", "FI"],
  ["HELSINKI/VANTAA", "EFHK", "None", "02974", "60.19N", "024.58E", "56", "FI"],
  ["HAILUOTO ISLAND", "EFHL", "None", "02874", "65.01N", "024.48E", "6", "FI"],
  ["AHTARI", "EFHT", "None", "02924", "62.31N", "024.13E", "161", "FI"],
  ["ILMAJOKI", "EFIL", "None", "None", "62.42N", "022.49E", "92", "FI"],
  ["IVALO", "EFIV", "None", "02807", "68.37N", "027.25E", "148", "FI"],
  ["JOENSUU", "EFJO", "None", "02929", "62.40N", "029.37E", "117", "FI"],
  ["JYVASKYLA (MIL/C", "EFJY", "None", "02935", "62.24N", "025.41E", "145", "FI"],
  ["KAUHAVA (FIN-AFB", "EFKA", "None", "02913", "63.06N", "023.03E", "44", "FI"],
  ["KEMI", "EFKE", "None", "02864", "65.46N", "024.34E", "15", "FI"],
  ["KAJAANI", "EFKI", "None", "02897", "64.16N", "027.40E", "136", "FI"],
  ["KRUUNUPYY", "EFKK", "None", "02903", "63.43N", "023.08E", "25", "FI"],
  ["KUUSAMO", "EFKS", "None", "02869", "66.00N", "029.14E", "263", "FI"],
  ["KITTILA", "EFKT", "None", "None", "67.42N", "024.51E", "643", "FI"],
  ["KUOPIO (MIL/CIV)", "EFKU", "None", "02917", "63.01N", "027.48E", "102", "FI"],
  ["LAPPEENRANTA", "EFLP", "None", "02958", "61.04N", "028.08E", "106", "FI"],
  ["LUOSTO FELL", "None", "None", "05841", "67.08N", "026.54E", "525", "FI"],
  ["MARIEHAMN/ALAND", "EFMA", "None", "02970", "60.07N", "019.53E", "6", "FI"],
  ["MIKKELI", "EFMI", "None", "02947", "61.41N", "027.12E", "138", "FI"],
  ["OULU/ULEABORG", "EFOU", "None", "02875", "64.55N", "025.22E", "15", "FI"],
  ["PELLO", "EFPE", "None", "02844", "66.47N", "024.00E", "84", "FI"],
  ["PORI (MIL/CIV)", "EFPO", "None", "02952", "61.28N", "021.48E", "17", "FI"],
  ["PUDASJARVI", "EFPU", "None", "02867", "65.22N", "027.01E", "117", "FI"],
  ["ROVANIEMI (CIV/M", "EFRO", "None", "02845", "66.34N", "025.49E", "201", "FI"],
  ["SAVONLINNA (AUT)", "EFSA", "None", "02948", "61.57N", "028.56E", "95", "FI"],
  ["SEINAJOKI-ILMAJO", "EFSI", "SJY", "None", "62.42N", "022.50E", "91", "FI"],
  ["SODANKYLA", "EFSO", "None", "02836", "67.22N", "026.38E", "179", "FI"],
  ["SUOMUSSALMI", "EFSU", "None", "02879", "64.54N", "029.01E", "224", "FI"],
  ["TAMPERE/PIRKKALA", "EFTP", "None", "02944", "61.25N", "023.37E", "112", "FI"],
  ["TURKU/ABO", "EFTU", "None", "02972", "60.31N", "022.16E", "59", "FI"],
  ["UTTI (FIN-AFB)", "EFUT", "None", "02966", "60.53N", "026.55E", "100", "FI"],
  ["VAASA", "EFVA", "None", "02911", "63.02N", "021.46E", "4", "FI"],
  ["VIITASAARI", "EFVI", "None", "02915", "63.04N", "025.52E", "132", "FI"],
  ["VARKAUS", "EFVR", "None", "None", "62.10N", "027.52E", "87", "FI"],
  ["YLIVIESKA", "EFYL", "None", "None", "64.02N", "024.43E", "77", "FI"],
  ["JOKIOINEN", "None", "None", "02963", "60.49N", "023.30E", "103", "FI"],
  ["BELFAST/ALDERGRO", "EGAA", "None", "03917", "54.38N", "006.13W", "81", "GB"],
  ["BELFAST HARBOUR", "EGAC", "None", "03924", "54.37N", "005.52W", "5", "GB"],
  ["EGLINTON/LONDOND", "EGAE", "None", "None", "55.02N", "007.09W", "9", "GB"],
  ["BIRMINGHAM AIRPO", "EGBB", "None", "03534", "52.28N", "001.45W", "99", "GB"],
  ["CAMPBELTOWN", "EGEC", "CAL", "None", "55.26N", "005.41W", "13", "GB"],
  ["COVENTRY AIRPORT", "EGBE", "None", "None", "52.22N", "001.28W", "82", "GB"],
  ["STAVERTON (PRIVA", "EGBJ", "None", "None", "51.54N", "002.10W", "29", "GB"],
  ["KEMBLE RAF", "EGBP", "None", "None", "51.40N", "002.02W", "133", "GB"],
  ["MANCHESTER INTL", "EGCC", "None", "03334", "53.21N", "002.16W", "78", "GB"],
  ["STRUBBY HELIPORT", "EGCG", "None", "None", "53.19N", "000.10E", "14", "GB"],
  ["DONCASTER SHEFFI", "EGCN", "None", "None", "53.29N", "001.00W", "17", "GB"],
  ["PLYMOUTH/MOUNTBA", "EGDB", "None", "03827", "50.21N", "004.07W", "27", "GB"],
  ["CHIVENOR RAF", "EGDC", "None", "03707", "51.05N", "004.09W", "8", "GB"],
  ["NEWQUAY", "EGHQ", "None", "None", "50.26N", "005.00W", "119", "GB"],
  ["LYNEHAM RAF", "EGDL", "None", "03740", "51.30N", "001.58W", "156", "GB"],
  ["BOSCOMBE DOWN", "EGDM", "None", "03746", "51.10N", "001.45W", "124", "GB"],
  ["NETHERAVON (ARMY", "EGDN", "None", "03745", "51.15N", "001.46W", "139", "GB"],
  ["PORTLAND HELIPOR", "EGDP", "None", "03858", "50.34N", "002.27W", "3", "GB"],
  ["CULDROSE (NAVY)", "EGDR", "None", "03809", "50.05N", "005.15W", "82", "GB"],
  ["ST ATHAN RAF", "EGDX", "None", "None", "51.24N", "003.26W", "50", "GB"],
  ["YEOVILTON (NAVY)", "EGDY", "None", "03853", "51.00N", "002.37W", "23", "GB"],
  ["OBAN AIRPORT", "EGEO", "None", "None", "56.28N", "005.24W", "6", "GB"],
  ["CARDIFF-WALES AR", "EGFF", "None", "03715", "51.23N", "003.21W", "67", "GB"],
  ["SWANSEA", "EGFH", "None", "None", "51.36N", "004.04W", "90", "GB"],
  ["BRISTOL/LULSGATE", "EGGD", "None", "None", "51.22N", "002.43W", "189", "GB"],
  ["LIVERPOOL AIRPOR", "EGGP", "None", "None", "53.19N", "002.51W", "26", "GB"],
  ["LUTON AIRPORT", "EGGW", "None", "None", "51.52N", "000.22W", "160", "GB"],
  ["PLYMOUTH/ROBOROU", "EGHD", "None", "None", "50.25N", "004.07W", "25", "GB"],
  ["SCILLY SAINT MAR", "EGHE", "None", "03803", "49.55N", "006.17W", "31", "GB"],
  ["BOURNEMOUTH AIRP", "EGHH", "None", "03862", "50.47N", "001.50W", "11", "GB"],
  ["SOUTHAMPTON WX C", "EGHI", "None", "03865", "50.57N", "001.21W", "14", "GB"],
  ["PENZANCE HELIPOR", "EGHK", "None", "None", "50.07N", "005.31W", "4", "GB"],
  ["ALDERNEY/CHANNEL", "EGJA", "None", "None", "49.43N", "002.12W", "71", "GB"],
  ["GUERNSEY AIRPORT", "EGJB", "None", "03894", "49.25N", "002.36W", "102", "GB"],
  ["JERSEY AIRPORT", "EGJJ", "None", "03895", "49.13N", "002.12W", "84", "GB"],
  ["SHOREHAM-BY-SEA", "EGKA", "None", "03876", "50.50N", "000.18W", "2", "GB"],
  ["BIGGIN HILL", "EGKB", "None", "None", "51.19N", "000.01E", "183", "GB"],
  ["LONDON/GATWICK A", "EGKK", "None", "03776", "51.08N", "000.10W", "62", "GB"],
  ["WEST MALLING", "EGKM", "None", "None", "51.16N", "000.25E", "104", "GB"],
  ["LONDON CITY AIRP", "EGLC", "None", "None", "51.30N", "000.03E", "5", "GB"],
  ["FARNBOROUGH", "EGLF", "None", "03768", "51.17N", "000.46W", "65", "GB"],
  ["LONDON/HEATHROW", "EGLL", "None", "03772", "51.29N", "000.27W", "24", "GB"],
  ["SOUTHEND-ON-SEA", "EGMC", "None", "None", "51.34N", "000.42E", "15", "GB"],
  ["LYDD AIRPORT", "EGMD", "None", "None", "50.57N", "000.55E", "3", "GB"],
  ["MANSTON SOUTHEAS", "EGMH", "None", "None", "51.21N", "001.20E", "55", "GB"],
  ["CARLISLE", "EGNC", "None", "03222", "54.56N", "002.49W", "26", "GB"],
  ["BLACKPOOL AIRPOR", "EGNH", "None", "03318", "53.46N", "003.01W", "10", "GB"],
  ["HUMBERSIDE", "EGNJ", "None", "None", "53.34N", "000.21W", "31", "GB"],
  ["WALNEY ISL/BARRO", "EGNL", "None", "03214", "54.07N", "003.15W", "15", "GB"],
  ["LEEDS AND BRADFO", "EGNM", "None", "None", "53.52N", "001.38W", "208", "GB"],
  ["WHARTON", "EGNO", "None", "None", "53.45N", "002.53W", "17", "GB"],
  ["HAWARDEN (AUT)", "EGNR", "None", "03321", "53.10N", "002.58W", "10", "GB"],
  ["ISLE OF MAN/RONA", "EGNS", "None", "03204", "54.05N", "004.38W", "17", "GB"],
  ["NEWCASTLE", "EGNT", "None", "None", "55.01N", "001.42W", "81", "GB"],
  ["TEES-SIDE", "EGNV", "None", "None", "54.31N", "001.25W", "37", "GB"],
  ["EAST MIDLANDS", "EGNX", "None", "None", "52.49N", "001.19W", "94", "GB"]]

/-- `STATIONS` (database/stations.py 5917-6016). -/
noncomputable def stations59 : List StationRow := rows! [
  ["LLANBEDR", "EGOD", "None", "None", "52.48N", "004.07W", "9", "GB"],
  ["TERNHILL RAF", "EGOE", "None", "None", "52.52N", "002.31W", "83", "GB"],
  ["SPADEADAM", "EGOM", "None", "03165", "55.03N", "002.33W", "325", "GB"],
  ["PEMBRY SANDS", "EGOP", "None", "03605", "51.43N", "004.19W", "6", "GB"],
  ["SHAWBURY RAF", "EGOS", "None", "03414", "52.48N", "002.40W", "76", "GB"],
  ["VALLEY RAF", "EGOV", "None", "03302", "53.15N", "004.32W", "11", "GB"],
  ["WOODVALE RAF", "EGOW", "None", "None", "53.35N", "003.03W", "12", "GB"],
  ["WEST FREUGH (AUT", "EGOY", "None", "03132", "54.51N", "004.57W", "12", "GB"],
  ["KIRKWALL AIRPORT", "EGPA", "None", "03017", "58.57N", "002.53W", "21", "GB"],
  ["TAIN RANGE (SAWS", "EGQA", "None", "03062", "57.50N", "003.57W", "4", "GB"],
  ["SUMBURGH (CAPE)", "EGPB", "None", "03003", "59.52N", "001.18W", "5", "GB"],
  ["WICK", "EGPC", "None", "03075", "58.27N", "003.04W", "39", "GB"],
  ["ABERDEEN/DYCE", "EGPD", "None", "03091", "57.12N", "002.13W", "65", "GB"],
  ["INVERNESS/DALCRO", "EGPE", "None", "03059", "57.31N", "004.02W", "9", "GB"],
  ["GLASGOW AIRPORT", "EGPF", "None", "03140", "55.52N", "004.25W", "8", "GB"],
  ["EDINBURGH AIRPOR", "EGPH", "None", "03160", "55.57N", "003.21W", "41", "GB"],
  ["ISLAY/PORT ELLEN", "EGPI", "None", "None", "55.41N", "006.15W", "18", "GB"],
  ["PRESTWICK(CIV/NA", "EGPK", "None", "03135", "55.30N", "004.34W", "20", "GB"],
  ["BENBECULA ISLAND", "EGPL", "None", "03022", "57.28N", "007.22W", "6", "GB"],
  ["SCATSA/SHETLAND", "EGPM", "None", "None", "60.25N", "001.18W", "22", "GB"],
  ["DUNDEE/RIVERSIDE", "EGPN", "None", "None", "56.27N", "003.01W", "4", "GB"],
  ["STORNOWAY", "EGPO", "None", "03026", "58.13N", "006.19W", "13", "GB"],
  ["PERTH/SCONE", "EGPT", "None", "None", "56.27N", "003.22W", "121", "GB"],
  ["TIREE ISLAND", "EGPU", "None", "03100", "56.30N", "006.52W", "12", "GB"],
  ["UNST ISLAND", "EGPW", "None", "None", "60.45N", "000.51W", "285", "GB"],
  ["MACHRIHANISH RAF", "EGQJ", "None", "03111", "55.25N", "005.42W", "13", "GB"],
  ["KINLOSS RAF", "EGQK", "None", "03066", "57.39N", "003.34W", "7", "GB"],
  ["LEUCHARS RAF", "EGQL", "None", "03171", "56.23N", "002.52W", "12", "GB"],
  ["BOULMER", "EGQM", "None", "03240", "55.25N", "001.36W", "23", "GB"],
  ["LOSSIEMOUTH RAF", "EGQS", "None", "03068", "57.43N", "003.19W", "13", "GB"],
  ["LONDON WEA CENTE", "EGRB", "None", "03779", "51.30N", "000.07W", "39", "GB"],
  ["UK MET EXETER", "EGRR", "None", "03763", "50.44N", "003.29W", "27", "GB"],
  ["CAMBRIDGE", "EGSC", "None", "None", "52.12N", "000.10E", "15", "GB"],
  ["GREAT YARMOUTH", "EGSD", "None", "None", "52.38N", "001.43E", "2", "GB"],
  ["NORWICH WEA CNTR", "EGSH", "None", "03492", "52.41N", "001.17E", "36", "GB"],
  ["STANSTED AIRPORT", "EGSS", "None", "03683", "51.53N", "000.13E", "106", "GB"],
  ["YORKSHIRE/HUMBER", "EGSY", "None", "None", "53.24N", "001.23W", "70", "GB"],
  ["CRANFIELD", "EGTC", "None", "None", "52.04N", "000.37W", "111", "GB"],
  ["EXETER AIRPORT", "EGTE", "None", "03839", "50.43N", "003.25W", "30", "GB"],
  ["FILTON (PRIVATE)", "EGTG", "None", "None", "51.31N", "002.34W", "69", "GB"],
  ["HATFIELD", "EGTH", "None", "None", "51.46N", "000.15W", "77", "GB"],
  ["OXFORD", "EGTK", "None", "None", "51.50N", "001.19W", "82", "GB"],
  ["BENSON RAF", "EGUB", "None", "03658", "51.37N", "001.04W", "63", "GB"],
  ["ABERPORTH", "EGUC", "None", "03502", "52.07N", "004.34W", "134", "GB"],
  ["FARNBOROUGH (MIL", "EGUF", "None", "03766", "51.16N", "000.46W", "72", "GB"],
  ["HIGH WYCOMBE RAF", "EGUH", "None", "None", "51.37N", "000.46W", "75", "GB"],
  ["LAKENHEATH RAF", "EGUL", "None", "03583", "52.25N", "000.34E", "10", "GB"],
  ["MANSTON RAF", "EGUM", "None", "03797", "51.21N", "001.20E", "55", "GB"],
  ["MILDENHALL RAF", "EGUN", "None", "03577", "52.22N", "000.28E", "10", "GB"],
  ["COLERNE RAF", "EGUO", "None", "None", "51.26N", "002.17W", "13", "GB"],
  ["LEE-ON-SOLENT(NA", "EGUS", "None", "03867", "50.49N", "001.13W", "10", "GB"],
  ["WATTISHAM RAF", "EGUW", "None", "03590", "52.07N", "000.58E", "87", "GB"],
  ["WYTON RAF", "EGUY", "None", "03566", "52.21N", "000.07W", "41", "GB"],
  ["FAIRFORD RAF", "EGVA", "None", "03644", "51.40N", "001.46W", "87", "GB"],
  ["WOODBRIDGE RAF", "EGVG", "None", "None", "52.04N", "001.23E", "29", "GB"],
  ["GREENHAM COMMON", "EGVI", "None", "None", "51.22N", "001.16W", "122", "GB"],
  ["BRIZE NORTON RAF", "EGVN", "None", "03649", "51.46N", "001.35W", "88", "GB"],
  ["ODIHAM RAF", "EGVO", "None", "03761", "51.14N", "000.57W", "123", "GB"],
  ["MIDDLE WALLOP", "EGVP", "None", "03749", "51.08N", "001.34W", "91", "GB"],
  ["WETHERSFIELD RAF", "EGVT", "None", "None", "51.58N", "000.30E", "98", "GB"],
  ["COSFORD RAF", "EGWC", "None", "None", "52.37N", "002.17W", "83", "GB"],
  ["HENLOW", "EGWE", "None", "None", "52.01N", "000.16W", "95", "GB"],
  ["NORTHOLT RAF", "EGWU", "None", "03672", "51.33N", "000.25W", "40", "GB"],
  ["ALCONBURY RAF", "EGWZ", "None", "03562", "52.22N", "000.13W", "49", "GB"],
  ["CONINGSBY RAF", "EGXC", "None", "03391", "53.06N", "000.10W", "7", "GB"],
  ["DISHFORTH RAF", "EGXD", "None", "03261", "54.08N", "001.25W", "35", "GB"],
  ["LEEMING RAF", "EGXE", "None", "03257", "54.17N", "001.31W", "40", "GB"],
  ["CHURCH FENTON RA", "EGXG", "None", "03355", "53.50N", "001.12W", "9", "GB"],
  ["HONINGTON RAF", "EGXH", "None", "03586", "52.19N", "000.46E", "54", "GB"],
  ["COTTESMORE RAF", "EGXJ", "None", "03453", "52.44N", "000.39W", "138", "GB"],
  ["NEWTON", "EGXN", "None", "None", "52.58N", "000.58W", "55", "GB"],
  ["SCAMPTON RAF", "EGXP", "None", "03373", "53.18N", "000.33W", "61", "GB"],
  ["DONNA NOOK RAF", "EGXS", "None", "None", "53.29N", "000.09E", "3", "GB"],
  ["WITTERING RAF", "EGXT", "None", "03462", "52.37N", "000.28W", "84", "GB"],
  ["LINTON-ON-OUSE R", "EGXU", "None", "03266", "54.03N", "001.15W", "16", "GB"],
  ["LECONFIELD (AUT)", "EGXV", "None", "03384", "53.52N", "000.27W", "6", "GB"],
  ["WADDINGTON RAF", "EGXW", "None", "03377", "53.11N", "000.31W", "70", "GB"],
  ["TOPCLIFFE RAF", "EGXZ", "None", "None", "54.12N", "001.23W", "28", "GB"],
  ["CRANWELL RAF", "EGYD", "None", "03379", "53.02N", "000.30W", "67", "GB"],
  ["BARKSTON HEATH R", "EGYE", "None", "None", "52.58N", "000.34W", "112", "GB"],
  ["HOLBEACH (AUT)", "EGYH", "None", "03469", "52.52N", "000.09E", "3", "GB"],
  ["MARHAM RAF", "EGYM", "None", "03482", "52.38N", "000.34E", "23", "GB"],
  ["WATTON RAF RADAR", "EGYR", "None", "None", "52.34N", "000.51E", "59", "GB"],
  ["WAINFLEET (AUT)", "EGYW", "None", "03392", "53.05N", "000.16E", "5", "GB"],
  ["CASTOR BAY", "None", "None", "03918", "54.18N", "006.11W", "15", "GB"],
  ["MUCKLE FLUGGA", "None", "None", "03001", "60.51N", "000.53W", "53", "GB"],
  ["LERWICK/SHETLAND", "None", "None", "03005", "60.08N", "001.11W", "82", "GB"],
  ["ALBERMARLE", "None", "None", "03238", "55.06N", "001.56W", "146", "GB"],
  ["NOTTINGHAM", "None", "None", "03354", "53.00N", "001.15W", "117", "GB"],
  ["CAMBORNE", "None", "None", "03808", "50.13N", "005.19W", "87", "GB"],
  ["HERSTOMONCEUX W", "None", "None", "03882", "50.54N", "000.19E", "54", "GB"],
  ["HILLSBOROUGH", "None", "None", "03920", "54.29N", "006.06W", "38", "GB"],
  ["SAINT MAWGAN RAF", "EGDG", "None", "03817", "50.26N", "005.00W", "119", "GB"],
  ["KEMBLE RAF", "EGDK", "None", "None", "51.40N", "002.02W", "133", "GB"],
  ["SANDOWN/WIGHT IS", "EGHN", "None", "None", "50.38N", "001.08W", "18", "GB"],
  ["BALLYKELLY", "EGQB", "None", "None", "55.04N", "007.01W", "2", "GB"],
  ["LEAVESDEN", "EGTI", "None", "None", "51.40N", "000.25W", "102", "GB"],
  ["UPPER HEYFORD RA", "EGUA", "None", "None", "51.55N", "001.15W", "134", "GB"],
  ["ABINGDON RAF", "EGUD", "None", "None", "51.40N", "001.19W", "80", "GB"],
  ["SCULTHORPE (AF M", "EGUP", "None", "None", "52.51N", "000.46E", "65", "GB"]]

end Verif
