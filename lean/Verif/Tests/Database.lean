import Verif.Tests.Check

/-
The rows of the stations and countries that the tests mention, in their order in
database/stations.py and database/countries.py. Generated by tools/tests2lean.py.
-/

namespace Verif.Tests

def testDb : Database where
  stations := [
    ⟨py!"AK ANCHORAGE INTL", py!"PANC", py!"ANC", py!"70273", py!"61.10N", py!"150.01W", py!"38", py!"US"⟩,
    ⟨py!"AK ANCHORAGE/LAKE H", py!"PALH", py!"LHD", py!"None", py!"61.11N", py!"149.58W", py!"22", py!"US"⟩,
    ⟨py!"AZ PHOENIX/SKY HRBR", py!"KPHX", py!"PHX", py!"72278", py!"33.26N", py!"112.01W", py!"336", py!"US"⟩,
    ⟨py!"CA LOS ANGELES", py!"KLAX", py!"LAX", py!"72295", py!"33.56N", py!"118.23W", py!"46", py!"US"⟩,
    ⟨py!"CA SAN DIEGO", py!"KSAN", py!"SAN", py!"72290", py!"32.44N", py!"117.11W", py!"12", py!"US"⟩,
    ⟨py!"CA SAN FRANCISCO", py!"KSFO", py!"SFO", py!"72494", py!"37.37N", py!"122.22W", py!"3", py!"US"⟩,
    ⟨py!"CO DENVER (DIA)", py!"KDEN", py!"DEN", py!"72565", py!"39.51N", py!"104.39W", py!"1640", py!"US"⟩,
    ⟨py!"FL FT LAUDERD/HOLLY", py!"KFLL", py!"FLL", py!"None", py!"26.04N", py!"080.09W", py!"3", py!"US"⟩,
    ⟨py!"FL MIAMI", py!"KMIA", py!"MIA", py!"None", py!"25.48N", py!"080.17W", py!"3", py!"US"⟩,
    ⟨py!"FL ORLANDO", py!"KMCO", py!"MCO", py!"72205", py!"28.25N", py!"081.20W", py!"29", py!"US"⟩,
    ⟨py!"FL TAMPA", py!"KTPA", py!"TPA", py!"72211", py!"27.58N", py!"082.32W", py!"11", py!"US"⟩,
    ⟨py!"GA ATLANTA", py!"KATL", py!"ATL", py!"72219", py!"33.38N", py!"084.27W", py!"296", py!"US"⟩,
    ⟨py!"IL CHICAGO", py!"KMDW", py!"MDW", py!"72534", py!"41.47N", py!"087.45W", py!"188", py!"US"⟩,
    ⟨py!"IL CHICAGO O'HARE", py!"KORD", py!"ORD", py!"72530", py!"41.59N", py!"087.56W", py!"200", py!"US"⟩,
    ⟨py!"KY COVINGTON", py!"KCVG", py!"CVG", py!"72421", py!"39.03N", py!"084.40W", py!"269", py!"US"⟩,
    ⟨py!"MA BOSTON", py!"KBOS", py!"BOS", py!"72509", py!"42.22N", py!"071.01W", py!"6", py!"US"⟩,
    ⟨py!"MD BALTO/WASH INTL", py!"KBWI", py!"BWI", py!"72406", py!"39.10N", py!"076.41W", py!"59", py!"US"⟩,
    ⟨py!"MI DETROIT/WAYNE", py!"KDTW", py!"DTW", py!"72537", py!"42.14N", py!"083.20W", py!"195", py!"US"⟩,
    ⟨py!"MN MINNEAPOLIS", py!"KMSP", py!"MSP", py!"72658", py!"44.53N", py!"093.14W", py!"265", py!"US"⟩,
    ⟨py!"MO ST. LOUIS", py!"KSTL", py!"STL", py!"72434", py!"38.45N", py!"090.22W", py!"171", py!"US"⟩,
    ⟨py!"NC CHARLOTTE", py!"KCLT", py!"CLT", py!"72314", py!"35.13N", py!"080.57W", py!"220", py!"US"⟩,
    ⟨py!"NJ NEWARK", py!"KEWR", py!"EWR", py!"72502", py!"40.41N", py!"074.10W", py!"7", py!"US"⟩,
    ⟨py!"NV LAS VEGAS", py!"KLAS", py!"LAS", py!"72386", py!"36.04N", py!"115.10W", py!"636", py!"US"⟩,
    ⟨py!"NY NYC/JFK ARPT", py!"KJFK", py!"JFK", py!"74486", py!"40.38N", py!"073.46W", py!"9", py!"US"⟩,
    ⟨py!"NY NYC/LA GUARDIA", py!"KLGA", py!"LGA", py!"72503", py!"40.47N", py!"073.53W", py!"11", py!"US"⟩,
    ⟨py!"OH CLEVELAND", py!"KCLE", py!"CLE", py!"72524", py!"41.25N", py!"081.51W", py!"233", py!"US"⟩,
    ⟨py!"OR PORTLAND", py!"KPDX", py!"PDX", py!"72698", py!"45.36N", py!"122.37W", py!"7", py!"US"⟩,
    ⟨py!"PA JOHNSTOWN", py!"KJST", py!"JST", py!"None", py!"40.19N", py!"078.50W", py!"694", py!"US"⟩,
    ⟨py!"PA PHILADELPHIA", py!"KPHL", py!"PHL", py!"72408", py!"39.52N", py!"075.14W", py!"18", py!"US"⟩,
    ⟨py!"PA PITTSBURGH", py!"KPIT", py!"PIT", py!"72520", py!"40.30N", py!"080.16W", py!"357", py!"US"⟩,
    ⟨py!"TN MEMPHIS", py!"KMEM", py!"MEM", py!"72334", py!"35.04N", py!"089.59W", py!"86", py!"US"⟩,
    ⟨py!"TX DALLAS/FT WORTH", py!"KDFW", py!"DFW", py!"72259", py!"32.54N", py!"097.01W", py!"174", py!"US"⟩,
    ⟨py!"TX CALDWELL", py!"KRWV", py!"RWV", py!"None", py!"30.31N", py!"096.42W", py!"119", py!"US"⟩,
    ⟨py!"TX HOUSTON/INTNL", py!"KIAH", py!"IAH", py!"72243", py!"30.00N", py!"095.22W", py!"36", py!"US"⟩,
    ⟨py!"UT SALT LAKE CITY", py!"KSLC", py!"SLC", py!"72572", py!"40.46N", py!"111.58W", py!"1286", py!"US"⟩,
    ⟨py!"VA WASH DC/DULLES", py!"KIAD", py!"IAD", py!"72403", py!"38.56N", py!"077.27W", py!"93", py!"US"⟩,
    ⟨py!"WA SEATTLE/METRO", py!"KSEA", py!"SEA", py!"72793", py!"47.27N", py!"122.19W", py!"136", py!"US"⟩,
    ⟨py!"DC WASHINGTON/NATL", py!"KDCA", py!"DCA", py!"72405", py!"38.51N", py!"077.02W", py!"18", py!"US"⟩,
    ⟨py!"NB MONCTON AIRPORT", py!"CYQM", py!"YQM", py!"71705", py!"46.07N", py!"064.40W", py!"71", py!"CA"⟩,
    ⟨py!"NT FORT SMITH", py!"CZSM", py!"None", py!"71362", py!"60.02N", py!"111.56W", py!"203", py!"CA"⟩,
    ⟨py!"GUADALAJARA", py!"MMGL", py!"GDL", py!"None", py!"20.31N", py!"103.19W", py!"1528", py!"MX"⟩,
    ⟨py!"MEXICO CITY/LICE", py!"MMMX", py!"MEX", py!"None", py!"19.25N", py!"099.05W", py!"2238", py!"MX"⟩,
    ⟨py!"PALENQUE", py!"MMPQ", py!"None", py!"None", py!"17.32N", py!"091.59W", py!"61", py!"MX"⟩,
    ⟨py!"PUERTO VALLARTA", py!"MMPR", py!"PVR", py!"None", py!"20.40N", py!"105.15W", py!"6", py!"MX"⟩,
    ⟨py!"TIJUANA INTL ARP", py!"MMTJ", py!"TIJ", py!"None", py!"32.32N", py!"116.58W", py!"152", py!"MX"⟩,
    ⟨py!"BEEF ISL/ROADTOW", py!"TUPJ", py!"None", py!"78550", py!"18.26N", py!"064.31W", py!"4", py!"VI"⟩,
    ⟨py!"GUATEMALA/LA AU", py!"MGGT", py!"None", py!"78641", py!"14.34N", py!"090.32W", py!"1509", py!"GT"⟩,
    ⟨py!"PUERTO BARRIOS(", py!"MGPB", py!"None", py!"78637", py!"15.43N", py!"088.35W", py!"10", py!"GT"⟩,
    ⟨py!"TEGUCIGALPA/TON", py!"MHTG", py!"None", py!"78720", py!"14.04N", py!"087.13W", py!"1004", py!"HN"⟩,
    ⟨py!"ILOPANGO/S.SALV", py!"MSSS", py!"None", py!"78663", py!"13.42N", py!"089.07W", py!"616", py!"SV"⟩,
    ⟨py!"MANAGUA/AUGUSTO", py!"MNMG", py!"None", py!"78741", py!"12.09N", py!"086.10W", py!"59", py!"NI"⟩,
    ⟨py!"LIMON INTL AIRP", py!"MRLM", py!"LIO", py!"78767", py!"09.58N", py!"083.02W", py!"2", py!"CR"⟩,
    ⟨py!"JUAN SANTAMARIA", py!"MROC", py!"SJO", py!"78762", py!"10.00N", py!"084.13W", py!"920", py!"CR"⟩,
    ⟨py!"TOBIAS BOLANOS", py!"MRPV", py!"SQY", py!"78764", py!"09.57N", py!"084.09W", py!"994", py!"CR"⟩,
    ⟨py!"TOCUMEN", py!"MPTO", py!"None", py!"78792", py!"09.03N", py!"079.22W", py!"45", py!"PA"⟩,
    ⟨py!"BOGOTA/ELDORADO", py!"SKBO", py!"None", py!"80222", py!"04.42N", py!"074.07W", py!"2548", py!"CO"⟩,
    ⟨py!"CARTAGENA/RAFAEL", py!"SKCG", py!"None", py!"80022", py!"10.26N", py!"075.31W", py!"1", py!"CO"⟩,
    ⟨py!"QUITO/NEW INTL", py!"SEQM", py!"None", py!"None", py!"00.07S", py!"078.21W", py!"2400", py!"EC"⟩,
    ⟨py!"BOA VISTA (CIV/M", py!"SBBV", py!"None", py!"82022", py!"02.51N", py!"060.42W", py!"140", py!"BR"⟩,
    ⟨py!"DESIERTO ATACAMA", py!"SCAT", py!"None", py!"None", py!"27.16S", py!"070.46W", py!"204", py!"CL"⟩,
    ⟨py!"ANTOFAGASTA/CERR", py!"SCFA", py!"None", py!"85442", py!"23.25S", py!"070.25W", py!"120", py!"CL"⟩,
    ⟨py!"VINA DEL MAR", py!"SCVM", py!"None", py!"None", py!"32.57S", py!"071.29W", py!"141", py!"CL"⟩,
    ⟨py!"ROSARIO AIRPORT", py!"SAAR", py!"None", py!"87480", py!"32.55S", py!"060.46W", py!"25", py!"AR"⟩,
    ⟨py!"COMODORO RIVADAV", py!"SAVC", py!"None", py!"87860", py!"45.46S", py!"067.28W", py!"46", py!"AR"⟩,
    ⟨py!"AKUREYRI", py!"BIAR", py!"None", py!"04063", py!"65.40N", py!"018.04W", py!"27", py!"IS"⟩,
    ⟨py!"BILDUDALUR", py!"BIBD", py!"None", py!"None", py!"65.38N", py!"023.33W", py!"6", py!"IS"⟩,
    ⟨py!"HJARDARNES/HORNA", py!"BIHN", py!"None", py!"04082", py!"64.18N", py!"015.14W", py!"7", py!"IS"⟩,
    ⟨py!"TENERIFE SUR/REI", py!"GCTS", py!"None", py!"60025", py!"28.03N", py!"016.34W", py!"72", py!"ES"⟩,
    ⟨py!"BERGERAC/ROUMANI", py!"LFBE", py!"None", py!"07530", py!"44.49N", py!"000.31E", py!"52", py!"FR"⟩,
    ⟨py!"PARIS/LE BOURGET", py!"LFPB", py!"None", py!"07150", py!"48.58N", py!"002.27E", py!"65", py!"FR"⟩,
    ⟨py!"BUDAPEST/FERIHEG", py!"LHBP", py!"None", py!"12839", py!"47.25N", py!"019.16E", py!"185", py!"HU"⟩,
    ⟨py!"GUIDONIA (IT-AFB", py!"LIRG", py!"None", py!"16234", py!"42.00N", py!"012.43E", py!"89", py!"IT"⟩,
    ⟨py!"LISBON/PORTELA", py!"LPPT", py!"None", py!"08536", py!"38.46N", py!"009.07W", py!"123", py!"PT"⟩,
    ⟨py!"TIVAT", py!"LYTV", py!"None", py!"13457", py!"42.23N", py!"018.43E", py!"5", py!"CS"⟩,
    ⟨py!"ANKARA/ETIMESGUT", py!"LTAD", py!"None", py!"17129", py!"39.57N", py!"032.40E", py!"806", py!"TR"⟩,
    ⟨py!"BANDIRMA (CIV/AF", py!"LTBG", py!"None", py!"17115", py!"40.19N", py!"027.58E", py!"49", py!"TR"⟩,
    ⟨py!"GAZIPASA", py!"LTFG", py!"None", py!"None", py!"36.18N", py!"032.18E", py!"95", py!"TR"⟩,
    ⟨py!"GIBRALTAR (CIV/M", py!"LXGB", py!"None", py!"08495", py!"36.08N", py!"005.20W", py!"5", py!"GI"⟩,
    ⟨py!"KAOLACK", py!"GOOK", py!"None", py!"61679", py!"14.09N", py!"016.04W", py!"7", py!"SN"⟩,
    ⟨py!"NAIMTOUGOU(CIV/M", py!"DXNG", py!"None", py!"65355", py!"09.46N", py!"001.06E", py!"343", py!"TG"⟩,
    ⟨py!"MANONO", py!"FZRA", py!"None", py!"64282", py!"07.16S", py!"027.25E", py!"633", py!"CD"⟩,
    ⟨py!"DOUALA (CIV/MIL)", py!"FKKD", py!"None", py!"64910", py!"04.00N", py!"009.43E", py!"9", py!"CM"⟩,
    ⟨py!"ST. DENIS/GILLOT", py!"FMEE", py!"None", py!"61980", py!"20.52S", py!"055.31E", py!"25", py!"FR"⟩,
    ⟨py!"KING FAHD INTL", py!"OEDF", py!"None", py!"None", py!"26.28N", py!"049.48E", py!"22", py!"SA"⟩,
    ⟨py!"SHARURAH (CIV/MI", py!"OESH", py!"None", py!"41136", py!"17.28N", py!"047.07E", py!"722", py!"SA"⟩,
    ⟨py!"KUWAIT INTL (MIL", py!"OKBK", py!"None", py!"40582", py!"29.13N", py!"047.58E", py!"55", py!"KW"⟩,
    ⟨py!"DUBAI INTL AIRPO", py!"OMDB", py!"None", py!"41194", py!"25.15N", py!"055.22E", py!"5", py!"AE"⟩,
    ⟨py!"SHAIKH ZAID", py!"OPRK", py!"None", py!"None", py!"28.23N", py!"070.17E", py!"83", py!"PK"⟩,
    ⟨py!"ARHANGELSK", py!"ULAA", py!"None", py!"22550", py!"64.36N", py!"040.43E", py!"19", py!"RU"⟩,
    ⟨py!"TSENTRALNY/OMSK", py!"UNOO", py!"OMS", py!"None", py!"54.58N", py!"073.19E", py!"95", py!"RU"⟩,
    ⟨py!"MOSCOW/DOMODEDOV", py!"UUDD", py!"None", py!"None", py!"55.24N", py!"037.54E", py!"168", py!"RU"⟩,
    ⟨py!"YANGYANG INTL", py!"RKNY", py!"None", py!"None", py!"38.04N", py!"128.40E", py!"74", py!"KR"⟩,
    ⟨py!"DAVAO/FRANCISCO", py!"RPMD", py!"None", py!"98753", py!"07.07N", py!"125.39E", py!"18", py!"PH"⟩]
  countries := [
    (py!"AR", py!"Argentina"),
    (py!"BR", py!"Brazil"),
    (py!"CM", py!"Cameroon"),
    (py!"CA", py!"Canada"),
    (py!"CL", py!"Chile"),
    (py!"CO", py!"Colombia"),
    (py!"CD", py!"Congo (the Democratic Republic of the)"),
    (py!"CR", py!"Costa Rica"),
    (py!"EC", py!"Ecuador"),
    (py!"SV", py!"El Salvador"),
    (py!"FR", py!"France"),
    (py!"GI", py!"Gibraltar"),
    (py!"GT", py!"Guatemala"),
    (py!"HN", py!"Honduras"),
    (py!"HU", py!"Hungary"),
    (py!"IS", py!"Iceland"),
    (py!"IT", py!"Italy"),
    (py!"KR", py!"Korea (the Republic of)"),
    (py!"KW", py!"Kuwait"),
    (py!"MX", py!"Mexico"),
    (py!"NI", py!"Nicaragua"),
    (py!"PK", py!"Pakistan"),
    (py!"PA", py!"Panama"),
    (py!"PH", py!"Philippines (the)"),
    (py!"PT", py!"Portugal"),
    (py!"RU", py!"Russian Federation (the)"),
    (py!"SA", py!"Saudi Arabia"),
    (py!"SN", py!"Senegal"),
    (py!"ES", py!"Spain"),
    (py!"TG", py!"Togo"),
    (py!"TR", py!"Turkey"),
    (py!"AE", py!"United Arab Emirates (the)"),
    (py!"US", py!"United States of America (the)"),
    (py!"VI", py!"Virgin Islands (U.S.)")]

/-- The tests that depend on the date give it as arguments. -/
def testClock : Clock := fun _ => ⟨2024, 6⟩

end Verif.Tests
