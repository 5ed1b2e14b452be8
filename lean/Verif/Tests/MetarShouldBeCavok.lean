import Verif.Tests.Database

/-
The assertions of tests/metar/test_should_be_cavok.py, checked of the model. Generated by tools/tests2lean.py.
-/

namespace Verif.Tests

/-! `test_clear_conditions` (tests/metar/test_should_be_cavok.py 7-28) -/

example : ok (Metar.new testDb testClock
    py!"METAR KLAX 302053Z 25009KT 10SM CLR 23/17 A2985 RMK AO2 SLP107 T02330167 58018"
    ⟨none, none, false⟩) (fun r =>
    (ok (r.core.clouds.getItem 0) fun v1 => same (.ofStr v1.cover) (.str py!"clear")) &&
    (ok (ceiling r.core.clouds.list) fun v2 => same (.bool v2) (.bool false)) &&
    (ok (r.core.shouldBeCavok true).1 fun v3a => same (.bool v3a) (.bool true)) &&
    (ok (r.core.shouldBeCavok false).1 fun v3b => same (.bool v3b) (.bool true))) = true := by decide +kernel

example : ok (Metar.new testDb testClock
    py!"METAR UUDD 300400Z 15003MPS 5000 BR NSC 05/05 Q1014 R14R/CLRD60 TEMPO 0300 FG"
    ⟨none, none, false⟩) (fun r =>
    (ok (r.core.clouds.getItem 0) fun v4 => same (.ofStr v4.cover) (.str py!"clear")) &&
    (ok (ceiling r.core.clouds.list) fun v5 => same (.bool v5) (.bool false)) &&
    (ok (r.core.shouldBeCavok true).1 fun v6a => same (.bool v6a) (.bool false)) &&
    (ok (r.core.shouldBeCavok false).1 fun v6b => same (.bool v6b) (.bool false))) = true := by decide +kernel

example : ok (Metar.new testDb testClock
    py!"METAR MROC 030500Z 07005KT 030V100 9999 SKC 21/18 A3011 NOSIG"
    ⟨none, none, false⟩) (fun r =>
    (ok (r.core.clouds.getItem 0) fun v7 => same (.ofStr v7.cover) (.str py!"clear")) &&
    (ok (ceiling r.core.clouds.list) fun v8 => same (.bool v8) (.bool false)) &&
    (ok (r.core.shouldBeCavok true).1 fun v9a => same (.bool v9a) (.bool true)) &&
    (ok (r.core.shouldBeCavok false).1 fun v9b => same (.bool v9b) (.bool true))) = true := by decide +kernel

/-! `test_general_conditions` (tests/metar/test_should_be_cavok.py 31-172) -/

example : ok (Metar.new testDb testClock
    py!"KATL 052052Z 33009G16KT 10SM FEW200 FEW250 26/03 A3002 RMK AO2 SLP162 T02560028 56014"
    ⟨none, none, false⟩) (fun r =>
    (ok (r.core.shouldBeCavok true).1 fun v1a => same (.bool v1a) (.bool true)) &&
    (ok (r.core.shouldBeCavok false).1 fun v1b => same (.bool v1b) (.bool true))) = true := by decide +kernel

example : ok (Metar.new testDb testClock
    py!"KBOS 052054Z 01012KT 7SM BKN009 OVC013 14/13 A2991 RMK AO2 DZB18E34 SLP128 P0000 60000 T01440128 50004 $"
    ⟨none, none, false⟩) (fun r =>
    (ok (r.core.shouldBeCavok true).1 fun v2a => same (.bool v2a) (.bool false)) &&
    (ok (r.core.shouldBeCavok false).1 fun v2b => same (.bool v2b) (.bool false))) = true := by decide +kernel

example : ok (Metar.new testDb testClock
    py!"KBWI 052054Z 31005KT 10SM SCT020 BKN035 BKN045 18/13 A2995 RMK AO2 SLP140 T01780128 55001 $"
    ⟨none, none, false⟩) (fun r =>
    (ok (r.core.shouldBeCavok true).1 fun v3a => same (.bool v3a) (.bool false)) &&
    (ok (r.core.shouldBeCavok false).1 fun v3b => same (.bool v3b) (.bool false))) = true := by decide +kernel

example : ok (Metar.new testDb testClock
    py!"KCLE 052051Z 01007KT 10SM FEW250 22/06 A3005 RMK AO2 SLP191 T02170061 56012"
    ⟨none, none, false⟩) (fun r =>
    (ok (r.core.shouldBeCavok true).1 fun v4a => same (.bool v4a) (.bool true)) &&
    (ok (r.core.shouldBeCavok false).1 fun v4b => same (.bool v4b) (.bool true))) = true := by decide +kernel

example : ok (Metar.new testDb testClock
    py!"KCLT 052052Z 32007KT 10SM FEW200 25/09 A2999 RMK SLP149 T02500089 56009"
    ⟨none, none, false⟩) (fun r =>
    (ok (r.core.shouldBeCavok true).1 fun v5a => same (.bool v5a) (.bool true)) &&
    (ok (r.core.shouldBeCavok false).1 fun v5b => same (.bool v5b) (.bool true))) = true := by decide +kernel

example : ok (Metar.new testDb testClock
    py!"KCVG 052052Z 31005KT 10SM BKN300 24/04 A3008 RMK AO2 SLP182 T02390039 56017"
    ⟨none, none, false⟩) (fun r =>
    (ok (r.core.shouldBeCavok true).1 fun v6a => same (.bool v6a) (.bool true)) &&
    (ok (r.core.shouldBeCavok false).1 fun v6b => same (.bool v6b) (.bool true))) = true := by decide +kernel

example : ok (Metar.new testDb testClock
    py!"KDCA 052058Z 35010KT 10SM SCT028 BKN039 OVC046 19/13 A2996 RMK AO2 T01940133"
    ⟨none, none, false⟩) (fun r =>
    (ok (r.core.shouldBeCavok true).1 fun v7a => same (.bool v7a) (.bool false)) &&
    (ok (r.core.shouldBeCavok false).1 fun v7b => same (.bool v7b) (.bool false))) = true := by decide +kernel

example : ok (Metar.new testDb testClock
    py!"KDEN 052053Z 04007KT 10SM SCT045 SCT200 20/06 A3030 RMK AO2 SLP204 T02000056 58012"
    ⟨none, none, false⟩) (fun r =>
    (ok (r.core.shouldBeCavok true).1 fun v8a => same (.bool v8a) (.bool false)) &&
    (ok (r.core.shouldBeCavok false).1 fun v8b => same (.bool v8b) (.bool false))) = true := by decide +kernel

example : ok (Metar.new testDb testClock
    py!"KDFW 052053Z 04004KT 10SM SCT250 31/06 A3004 RMK AO2 SLP164 T03060056 56020"
    ⟨none, none, false⟩) (fun r =>
    (ok (r.core.shouldBeCavok true).1 fun v9a => same (.bool v9a) (.bool true)) &&
    (ok (r.core.shouldBeCavok false).1 fun v9b => same (.bool v9b) (.bool true))) = true := by decide +kernel

example : ok (Metar.new testDb testClock
    py!"KDTW 052053Z 32009KT 10SM FEW130 BKN250 24/08 A3005 RMK AO2 SLP173 T02440083 56016 PNO"
    ⟨none, none, false⟩) (fun r =>
    (ok (r.core.shouldBeCavok true).1 fun v10a => same (.bool v10a) (.bool true)) &&
    (ok (r.core.shouldBeCavok false).1 fun v10b => same (.bool v10b) (.bool true))) = true := by decide +kernel

example : ok (Metar.new testDb testClock
    py!"KEWR 052055Z 02008KT 6SM -RA BR SCT008 BKN013 OVC025 13/13 A2992 RMK AO2 P0000 T01280128"
    ⟨none, none, false⟩) (fun r =>
    (ok (r.core.shouldBeCavok true).1 fun v11a => same (.bool v11a) (.bool false)) &&
    (ok (r.core.shouldBeCavok false).1 fun v11b => same (.bool v11b) (.bool false))) = true := by decide +kernel

example : ok (Metar.new testDb testClock
    py!"KFLL 052053Z 06009KT 10SM SCT040 SCT075 BKN090 28/19 A2995 RMK AO2 SLP140 T02780194 55007"
    ⟨none, none, false⟩) (fun r =>
    (ok (r.core.shouldBeCavok true).1 fun v12a => same (.bool v12a) (.bool false)) &&
    (ok (r.core.shouldBeCavok false).1 fun v12b => same (.bool v12b) (.bool false))) = true := by decide +kernel

example : ok (Metar.new testDb testClock
    py!"KIAD 052052Z 33012KT 10SM FEW037 BKN100 21/12 A2996 RMK AO2 SLP145 T02110117 55006"
    ⟨none, none, false⟩) (fun r =>
    (ok (r.core.shouldBeCavok true).1 fun v13a => same (.bool v13a) (.bool false)) &&
    (ok (r.core.shouldBeCavok false).1 fun v13b => same (.bool v13b) (.bool false))) = true := by decide +kernel

example : ok (Metar.new testDb testClock
    py!"KIAH 052053Z 05005KT 10SM FEW060 30/12 A3002 RMK AO2 SLP164 T03000122 56023"
    ⟨none, none, false⟩) (fun r =>
    (ok (r.core.shouldBeCavok true).1 fun v14a => same (.bool v14a) (.bool true)) &&
    (ok (r.core.shouldBeCavok false).1 fun v14b => same (.bool v14b) (.bool true))) = true := by decide +kernel

example : ok (Metar.new testDb testClock
    py!"KJFK 052102Z 33011KT 10SM -RA FEW006 BKN080 OVC100 13/13 A2989 RMK AO2 VIS 2 1/2 W P0002 T01330133"
    ⟨none, none, false⟩) (fun r =>
    (ok (r.core.shouldBeCavok true).1 fun v15a => same (.bool v15a) (.bool false)) &&
    (ok (r.core.shouldBeCavok false).1 fun v15b => same (.bool v15b) (.bool false))) = true := by decide +kernel

example : ok (Metar.new testDb testClock
    py!"KLAS 052056Z 00000KT 10SM FEW140 31/01 A3002 RMK AO2 SLP141 T03110011 58023"
    ⟨none, none, false⟩) (fun r =>
    (ok (r.core.shouldBeCavok true).1 fun v16a => same (.bool v16a) (.bool true)) &&
    (ok (r.core.shouldBeCavok false).1 fun v16b => same (.bool v16b) (.bool true))) = true := by decide +kernel

example : ok (Metar.new testDb testClock
    py!"KLAX 052053Z 24012KT 8SM FEW009 SCT018 23/18 A2996 RMK AO2 SLP142 T02330178 58013"
    ⟨none, none, false⟩) (fun r =>
    (ok (r.core.shouldBeCavok true).1 fun v17a => same (.bool v17a) (.bool false)) &&
    (ok (r.core.shouldBeCavok false).1 fun v17b => same (.bool v17b) (.bool false))) = true := by decide +kernel

example : ok (Metar.new testDb testClock
    py!"KLGA 052113Z 33010KT 10SM SCT016 OVC065 14/12 A2989 RMK AO2 T01440122"
    ⟨none, none, false⟩) (fun r =>
    (ok (r.core.shouldBeCavok true).1 fun v18a => same (.bool v18a) (.bool false)) &&
    (ok (r.core.shouldBeCavok false).1 fun v18b => same (.bool v18b) (.bool false))) = true := by decide +kernel

example : ok (Metar.new testDb testClock
    py!"KMCO 052053Z 03004KT 10SM SCT055 28/14 A2998 RMK AO2 SLP150 T02780144 55013"
    ⟨none, none, false⟩) (fun r =>
    (ok (r.core.shouldBeCavok true).1 fun v19a => same (.bool v19a) (.bool true)) &&
    (ok (r.core.shouldBeCavok false).1 fun v19b => same (.bool v19b) (.bool true))) = true := by decide +kernel

example : ok (Metar.new testDb testClock
    py!"KMDW 052053Z 24010KT 10SM SCT150 BKN200 BKN250 25/00 A3005 RMK AO2 SLP171 T02500000 56020"
    ⟨none, none, false⟩) (fun r =>
    (ok (r.core.shouldBeCavok true).1 fun v20a => same (.bool v20a) (.bool true)) &&
    (ok (r.core.shouldBeCavok false).1 fun v20b => same (.bool v20b) (.bool true))) = true := by decide +kernel

example : ok (Metar.new testDb testClock
    py!"KMEM 052054Z 35006KT 10SM FEW250 26/04 A3008 RMK AO2 SLP181 T02610044 56018"
    ⟨none, none, false⟩) (fun r =>
    (ok (r.core.shouldBeCavok true).1 fun v21a => same (.bool v21a) (.bool true)) &&
    (ok (r.core.shouldBeCavok false).1 fun v21b => same (.bool v21b) (.bool true))) = true := by decide +kernel

example : ok (Metar.new testDb testClock
    py!"KMIA 052053Z COR 05010KT 10SM -RA BKN035 BKN060 BKN080 28/20 A2995 RMK AO2 RAB41 SLP144 P0000 60000 T02830200 55004"
    ⟨none, none, false⟩) (fun r =>
    (ok (r.core.shouldBeCavok true).1 fun v22a => same (.bool v22a) (.bool false)) &&
    (ok (r.core.shouldBeCavok false).1 fun v22b => same (.bool v22b) (.bool false))) = true := by decide +kernel

example : ok (Metar.new testDb testClock
    py!"KMSP 052053Z 28006KT 10SM FEW030 FEW040 BKN090 21/13 A2999 RMK AO2 SLP152 T02060128 55007"
    ⟨none, none, false⟩) (fun r =>
    (ok (r.core.shouldBeCavok true).1 fun v23a => same (.bool v23a) (.bool false)) &&
    (ok (r.core.shouldBeCavok false).1 fun v23b => same (.bool v23b) (.bool false))) = true := by decide +kernel

example : ok (Metar.new testDb testClock
    py!"KORD 052051Z VRB06KT 10SM SCT170 BKN200 BKN250 24/01 A3004 RMK AO2 SLP172 T02390006 56020"
    ⟨none, none, false⟩) (fun r =>
    (ok (r.core.shouldBeCavok true).1 fun v24a => same (.bool v24a) (.bool true)) &&
    (ok (r.core.shouldBeCavok false).1 fun v24b => same (.bool v24b) (.bool true))) = true := by decide +kernel

example : ok (Metar.new testDb testClock
    py!"KPDX 052118Z 00000KT 10SM BKN017 19/13 A3013 RMK AO2 T01940133"
    ⟨none, none, false⟩) (fun r =>
    (ok (r.core.shouldBeCavok true).1 fun v25a => same (.bool v25a) (.bool false)) &&
    (ok (r.core.shouldBeCavok false).1 fun v25b => same (.bool v25b) (.bool false))) = true := by decide +kernel

example : ok (Metar.new testDb testClock
    py!"KPHL 052054Z 36007G18KT 10SM OVC016 18/13 A2993 RMK AO2 SLP134 T01780133 53004"
    ⟨none, none, false⟩) (fun r =>
    (ok (r.core.shouldBeCavok true).1 fun v26a => same (.bool v26a) (.bool false)) &&
    (ok (r.core.shouldBeCavok false).1 fun v26b => same (.bool v26b) (.bool false))) = true := by decide +kernel

example : ok (Metar.new testDb testClock
    py!"KPHX 052051Z 18004KT 10SM FEW090 FEW250 33/10 A2990 RMK AO2 SLP107 CB DSNT E AND S AND NW T03330100 58028"
    ⟨none, none, false⟩) (fun r =>
    (ok (r.core.shouldBeCavok true).1 fun v27a => same (.bool v27a) (.bool true)) &&
    (ok (r.core.shouldBeCavok false).1 fun v27b => same (.bool v27b) (.bool true))) = true := by decide +kernel

example : ok (Metar.new testDb testClock
    py!"KPIT 052051Z 32007KT 10SM FEW250 21/03 A3005 RMK AO2 SLP183 T02110033 56010"
    ⟨none, none, false⟩) (fun r =>
    (ok (r.core.shouldBeCavok true).1 fun v28a => same (.bool v28a) (.bool true)) &&
    (ok (r.core.shouldBeCavok false).1 fun v28b => same (.bool v28b) (.bool true))) = true := by decide +kernel

example : ok (Metar.new testDb testClock
    py!"KSAN 052102Z 29006KT 10SM OVC009 21/17 A2997 RMK AO2 T02060172"
    ⟨none, none, false⟩) (fun r =>
    (ok (r.core.shouldBeCavok true).1 fun v29a => same (.bool v29a) (.bool false)) &&
    (ok (r.core.shouldBeCavok false).1 fun v29b => same (.bool v29b) (.bool false))) = true := by decide +kernel

example : ok (Metar.new testDb testClock
    py!"KSEA 052053Z 28004KT 3SM BR OVC007 15/13 A3019 RMK AO2 SLP229 T01500128 58007"
    ⟨none, none, false⟩) (fun r =>
    (ok (r.core.shouldBeCavok true).1 fun v30a => same (.bool v30a) (.bool false)) &&
    (ok (r.core.shouldBeCavok false).1 fun v30b => same (.bool v30b) (.bool false))) = true := by decide +kernel

example : ok (Metar.new testDb testClock
    py!"KSFO 052056Z 34008KT 10SM FEW006 22/14 A2999 RMK AO2 SLP155 T02170139 58018"
    ⟨none, none, false⟩) (fun r =>
    (ok (r.core.shouldBeCavok true).1 fun v31a => same (.bool v31a) (.bool false)) &&
    (ok (r.core.shouldBeCavok false).1 fun v31b => same (.bool v31b) (.bool false))) = true := by decide +kernel

example : ok (Metar.new testDb testClock
    py!"KSLC 052054Z 31008KT 10SM FEW100 26/04 A3021 RMK AO2 SLP187 T02560039 58014"
    ⟨none, none, false⟩) (fun r =>
    (ok (r.core.shouldBeCavok true).1 fun v32a => same (.bool v32a) (.bool true)) &&
    (ok (r.core.shouldBeCavok false).1 fun v32b => same (.bool v32b) (.bool true))) = true := by decide +kernel

example : ok (Metar.new testDb testClock
    py!"KSTL 052051Z VRB03KT 10SM BKN140 BKN250 26/03 A3007 RMK AO2 SLP179 T02560033 56021"
    ⟨none, none, false⟩) (fun r =>
    (ok (r.core.shouldBeCavok true).1 fun v33a => same (.bool v33a) (.bool true)) &&
    (ok (r.core.shouldBeCavok false).1 fun v33b => same (.bool v33b) (.bool true))) = true := by decide +kernel

example : ok (Metar.new testDb testClock
    py!"KTPA 052053Z 26007KT 10SM SCT050 SCT250 27/17 A2997 RMK AO2 SLP149 T02720167 56014"
    ⟨none, none, false⟩) (fun r =>
    (ok (r.core.shouldBeCavok true).1 fun v34a => same (.bool v34a) (.bool true)) &&
    (ok (r.core.shouldBeCavok false).1 fun v34b => same (.bool v34b) (.bool true))) = true := by decide +kernel

end Verif.Tests
