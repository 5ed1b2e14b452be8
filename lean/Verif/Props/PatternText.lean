import Verif.Lemmas.PatternText
import Verif.Model.Regexps
import Verif.Model.Metar
import Verif.Py.DateTime

/-
C92: the patterns. The trees used by the model are those that the pattern texts of the library
denote under the grammar of `Spec/PatternText.lean`, and a text denotes one tree at most. So
nothing rests on the elaborator that reads the texts.
-/

namespace Verif.Props
open Verif Spec

/-- A text has one syntax tree at most, and denotes one pattern at most. -/
theorem C92_unique :
    (∀ a b : Syn, a.ok = true → b.ok = true → a.text = b.text → a = b) ∧
      ∀ text r r', Denotes text r → Denotes text r' → r = r' :=
  ⟨fun _ _ => text_injective, fun _ _ _ => denotes_unique⟩

/-- The texts of `metar_regexp.py`, in the order of the file. -/
def metarTexts : List (PyStr × RE) := [
  (py! r"^(?P<type>METAR|SPECI|TAF)$", MetarRegExp.TYPE),
  (py! r"^(?P<station>[A-Z][A-Z0-9]{3})$", MetarRegExp.STATION),
  (py! r"^(?P<day>0[1-9]|[12][0-9]|3[01])(?P<hour>[0-1]\d|2[0-4])(?P<min>[0-5]\d)Z$",
    MetarRegExp.TIME),
  (py! r"^(?P<mod>COR(R)?|AMD|NIL|TEST|FINO|AUTO)$", MetarRegExp.MODIFIER),
  (py! r"^(?P<dir>([0-2][0-9]|3[0-6])0|///|VRB)P?(?P<speed>\d{2,3}|//|///)(G(P)?(?P<gust>\d{2,3}))?(?P<units>KT|MPS)$",
    MetarRegExp.WIND),
  (py! r"^(?P<from>(0[1-9]|[12][0-9]|3[0-6])0)V(?P<to>(0[1-9]|[12][0-9]|3[0-6])0)$",
    MetarRegExp.WIND_VARIATION),
  (py! r"^((?P<vis>\d{4}|////)(?P<dir>[NSEW]([EW])?)?|(M|P)?(?P<integer>\d{1,2})?_?(?P<fraction>\d/\d)?(?P<units>SM|KM|M|U)|(?P<cavok>CAVOK))$",
    MetarRegExp.VISIBILITY),
  (py! r"^(?P<vis>\d{4}|////)(?P<dir>[NSEW]([EW])?)?$", MetarRegExp.MINIMUM_VISIBILITY),
  (py! r"^R(?P<name>\d{2}[RLC]?)/(?P<rvrlow>[MP])?(?P<low>\d{2,4})(V(?P<rvrhigh>[MP])?(?P<high>\d{2,4}))?(?P<units>FT)?(?P<trend>[NDU])?$",
    MetarRegExp.RUNWAY_RANGE),
  (py! r"^(?P<int>(-|\+)VC|(-|\+)|VC)?(?P<desc>MI|PR|BC|DR|BL|SH|TS|FZ)?((?P<prec>DZ|RA|SN|SG|IC|PL|GR|GS|UP)|(?P<obsc>BR|FG|FU|VA|DU|SA|HZ|PY)|(?P<other>PO|SQ|FC|SS|DS|NSW|/))?$",
    MetarRegExp.WEATHER),
  (py! r"^(?P<cover>VV|CLR|SKC|NSC|NCD|BKN|SCT|FEW|[O0]VC|///)(?P<height>\d{3}|///)?(?P<type>TCU|CB|///)?$",
    MetarRegExp.CLOUD),
  (py! r"^(?P<tsign>M|-)?(?P<temp>\d{2}|//|XX|MM)/(?P<dsign>M|-)?(?P<dewpt>\d{2}|//|XX|MM)$",
    MetarRegExp.TEMPERATURES),
  (py! r"^(?P<units>A|Q|QNH)?(?P<press>\d{4}|\//\//)(?P<units2>INS)?$", MetarRegExp.PRESSURE),
  (py! r"^RE(?P<desc>MI|PR|BC|DR|BL|SH|TS|FZ)?(?P<prec>DZ|RA|SN|SG|IC|PL|GR|GS|UP)?(?P<obsc>BR|FG|VA|DU|SA|HZ|PY)?(?P<other>PO|SQ|FC|SS|DS)?$",
    MetarRegExp.RECENT_WEATHER),
  (py! r"^WS(?P<all>_ALL)?_(RWY|R(?P<name>\d{2}[RCL]?))$", MetarRegExp.WINDSHEAR),
  (py! r"^W(?P<sign>M)?(?P<temp>\d{2})/(S(?P<state>\d)|H(?P<height>\d{3}))$",
    MetarRegExp.SEA_STATE),
  (py! r"^R(?P<name>\d{2}([RLC])?)?/((?P<deposit>\d|/)(?P<cont>\d|/)(?P<depth>\d\d|//)(?P<fric>\d\d|//)|(?P<snoclo>SNOCLO)|(?P<clrd>CLRD//))$",
    MetarRegExp.RUNWAY_STATE),
  (py! r"^TEMPO|BECMG|NOSIG$", MetarRegExp.CHANGE_INDICATOR),
  (py! r"^(?P<prefix>FM|TL|AT)(?P<hour>[01]\d|2[0-4])(?P<min>[0-5]\d)$",
    MetarRegExp.TREND_TIME_PERIOD),
  (py! r"^(?P<rmk>RMK(S)?)$", MetarRegExp.REMARK)]

/-- The texts of `taf_regexp.py`, in the order of the file. -/
def tafTexts : List (PyStr × RE) := [
  (py! r"^(?P<mod>COR|AMD)$", TafRegExp.AMD_COR),
  (py! r"^NIL$", TafRegExp.NIL),
  (py! r"^(?P<fmday>0[1-9]|[12][0-9]|3[01])(?P<fmhour>[0-1]\d|2[0-3])/(?P<tlday>0[1-9]|[12][0-9]|3[01])(?P<tlhour>[0-1]\d|2[0-4])$",
    TafRegExp.VALID),
  (py! r"^CNL$", TafRegExp.CANCELLED),
  (py! r"^(?P<dir>([0-2][0-9]|3[0-6])0|VRB)P?(?P<speed>\d{2,3})(G(P)?(?P<gust>\d{2,3}))?(?P<units>KT|MPS)$",
    TafRegExp.WIND),
  (py! r"^(?P<vis>\d{4})(?P<dir>[NSEW]([EW])?)?|(M|P)?(?P<integer>\d{1,2})?_?(?P<fraction>\d/\d)?(?P<units>SM|KM|M|U)|(?P<cavok>CAVOK)$",
    TafRegExp.VISIBILITY),
  (py! r"T(?P<type>N|X)(?P<sign>M)?(?P<temp>\d{2})/(?P<day>0[1-9]|[12][0-9]|3[01])(?P<hour>[0-1]\d|2[0-3])Z",
    TafRegExp.TEMPERATURE),
  (py! r"^TEMPO|BECMG|FM(?P<day>0[1-9]|[12][0-9]|3[01])(?P<hour>[0-1]\d|2[0-3])(?P<minute>[0-5]\d)|PROB[34]0(_TEMPO)?$",
    TafRegExp.CHANGE_INDICATOR)]

/-- The other patterns: `parser.py` 17, 40, 42, 62, `report.py` 22, `wind.py` 209 (also
`weather.py` 91 and `recent_weather.py` 36), and the one that `strptime` makes of `%Y%m%d%H%M`
(`_strptime.py`). -/
def otherTexts : List (PyStr × RE) := [
  (py! r"\s(?P<int>\d+)\s(?P<frac>\d/\dSM)\s?", sanVisRE),
  (py! r"WS\sALL\sRWY", sanWsAllRE),
  (py! r"WS\sR(WY)?(?P<name>\d{2}[CLR]?)", sanWsRE),
  (py! r"PROB(?P<percent>[34]0)\sTEMPO", sanProbRE),
  (py! r"\s{2,}|\n+|\t+", blanksRE),
  (py! r"\s{2,}", spaces2RE),
  (py! r"(?P<Y>\d\d\d\d)(?P<m>1[0-2]|0[1-9]|[1-9])(?P<d>3[0-1]|[1-2]\d|0[1-9]|[1-9]| [1-9])(?P<H>2[0-3]|[0-1]\d|\d)(?P<M>[0-5]\d|\d)",
    strptimeRE)]

/-- The keywords of `split_sentence` (split.py 48 compiles them as patterns). -/
theorem ofLit_denotes (kw : PyStr) (h : ∀ c ∈ kw, special.contains c = false) :
    Denotes kw (RE.ofLit kw) := by
  suffices h' : kw = [] ∨ ∃ a : Syn, a.ok = true ∧ a.text = kw ∧ a.means = RE.ofLit kw ∧
      (a.isPiece || match a with | .cat _ _ => true | _ => false) = true by
    rcases h' with rfl | ⟨a, h1, h2, h3, _⟩
    · exact ⟨.empty, rfl, rfl, rfl⟩
    · exact ⟨a, h1, h2, h3⟩
  induction kw with
  | nil => exact .inl rfl
  | cons c t ih =>
    right
    have hc : (One.plain c).ok = true := by simp only [One.ok, h c (by simp)]; rfl
    cases t with
    | nil => exact ⟨.one (.plain c), hc, rfl, rfl, rfl⟩
    | cons d t =>
      rcases ih (fun x hx => h x (by simp [hx])) with e | ⟨a, h1, h2, h3, h4⟩
      · simp at e
      · refine ⟨.cat (.one (.plain c)) a, ?_, ?_, ?_, rfl⟩
        · simp only [Syn.ok, Bool.and_eq_true]
          exact ⟨⟨⟨rfl, hc⟩, h1⟩, h4⟩
        · simp [Syn.text, One.text, h2]
        · simp only [Syn.means, h3, RE.ofLit]; rfl

/-- Every pattern of the model is the only one denoted by its text. -/
theorem C92_patterns :
    (∀ e ∈ metarTexts ++ tafTexts ++ otherTexts, ∀ r, Denotes e.1 r ↔ r = e.2) ∧
      ∀ kw : PyStr, (∀ c ∈ kw, special.contains c = false) →
        ∀ r, Denotes kw r ↔ r = RE.ofLit kw := by
  refine ⟨?_, fun kw h r => ⟨fun h' => denotes_unique h' (ofLit_denotes kw h), ?_⟩⟩
  · have hb : ∀ e ∈ metarTexts ++ tafTexts ++ otherTexts, denotesB e.1 e.2 = true := by
      decide +kernel
    intro e he r
    refine ⟨fun h => denotes_unique h (denotes_of_check (hb e he)), ?_⟩
    rintro rfl
    exact denotes_of_check (hb e he)
  · rintro rfl; exact ofLit_denotes kw h

/-- The grammar is not empty and tells things apart: `A|B?` is not `(A|B)?`. -/
example : Denotes py!"A|B?" (.alt (.chr (.set [(65, 65)])) (.opt (.chr (.set [(66, 66)])))) ∧
    ¬ Denotes py!"A|B?" (.opt (.alt (.chr (.set [(65, 65)])) (.chr (.set [(66, 66)])))) := by
  have h : Denotes py!"A|B?" (.alt (.chr (.set [(65, 65)])) (.opt (.chr (.set [(66, 66)])))) :=
    denotes_of_check (by decide)
  exact ⟨h, fun h' => by have := C92_unique.2 _ _ _ h h'; simp at this⟩

end Verif.Props
