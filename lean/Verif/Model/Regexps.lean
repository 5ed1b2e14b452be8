import Verif.Py.Regex

/-
Model of `aeromet_py/utils/metar_regexp.py` and `aeromet_py/utils/taf_regexp.py`: the pattern
texts are copied literally.
-/

namespace Verif

namespace MetarRegExp

/-- metar_regexp.py 3 -/
def TYPE : RE := re! [r"^(?P<type>METAR|SPECI|TAF)$"]

/-- 5 -/
def STATION : RE := re! [r"^(?P<station>[A-Z][A-Z0-9]{3})$"]

/-- 7-11 -/
def TIME : RE := re! [
  r"^(?P<day>0[1-9]|[12][0-9]|3[01])",
  r"(?P<hour>[0-1]\d|2[0-4])",
  r"(?P<min>[0-5]\d)Z$"]

/-- 13 -/
def MODIFIER : RE := re! [r"^(?P<mod>COR(R)?|AMD|NIL|TEST|FINO|AUTO)$"]

/-- 15-20 -/
def WIND : RE := re! [
  r"^(?P<dir>([0-2][0-9]|3[0-6])0|///|VRB)",
  r"P?(?P<speed>\d{2,3}|//|///)",
  r"(G(P)?(?P<gust>\d{2,3}))?",
  r"(?P<units>KT|MPS)$"]

/-- 22-24 -/
def WIND_VARIATION : RE := re! [
  r"^(?P<from>(0[1-9]|[12][0-9]|3[0-6])0)", r"V(?P<to>(0[1-9]|[12][0-9]|3[0-6])0)$"]

/-- 26-33 -/
def VISIBILITY : RE := re! [
  r"^((?P<vis>\d{4}|////)",
  r"(?P<dir>[NSEW]([EW])?)?|",
  r"(M|P)?(?P<integer>\d{1,2})?_?",
  r"(?P<fraction>\d/\d)?",
  r"(?P<units>SM|KM|M|U)|",
  r"(?P<cavok>CAVOK))$"]

/-- 35 -/
def MINIMUM_VISIBILITY : RE := re! [r"^(?P<vis>\d{4}|////)", r"(?P<dir>[NSEW]([EW])?)?$"]

/-- 37-45 -/
def RUNWAY_RANGE : RE := re! [
  r"^R(?P<name>\d{2}[RLC]?)/",
  r"(?P<rvrlow>[MP])?",
  r"(?P<low>\d{2,4})",
  r"(V(?P<rvrhigh>[MP])?",
  r"(?P<high>\d{2,4}))?",
  r"(?P<units>FT)?",
  r"(?P<trend>[NDU])?$"]

/-- 47-53 -/
def WEATHER : RE := re! [
  r"^(?P<int>(-|\+)VC|(-|\+)|VC)?",
  r"(?P<desc>MI|PR|BC|DR|BL|SH|TS|FZ)?",
  r"((?P<prec>DZ|RA|SN|SG|IC|PL|GR|GS|UP)|",
  r"(?P<obsc>BR|FG|FU|VA|DU|SA|HZ|PY)|",
  r"(?P<other>PO|SQ|FC|SS|DS|NSW|/))?$"]

/-- 55-59 -/
def CLOUD : RE := re! [
  r"^(?P<cover>VV|CLR|SKC|NSC|NCD|BKN|SCT|FEW|[O0]VC|///)",
  r"(?P<height>\d{3}|///)?",
  r"(?P<type>TCU|CB|///)?$"]

/-- 61-66 -/
def TEMPERATURES : RE := re! [
  r"^(?P<tsign>M|-)?",
  r"(?P<temp>\d{2}|//|XX|MM)/",
  r"(?P<dsign>M|-)?",
  r"(?P<dewpt>\d{2}|//|XX|MM)$"]

/-- 68 -/
def PRESSURE : RE := re! [r"^(?P<units>A|Q|QNH)?", r"(?P<press>\d{4}|\//\//)", r"(?P<units2>INS)?$"]

/-- 70-75 -/
def RECENT_WEATHER : RE := re! [
  r"^RE(?P<desc>MI|PR|BC|DR|BL|SH|TS|FZ)?",
  r"(?P<prec>DZ|RA|SN|SG|IC|PL|GR|GS|UP)?",
  r"(?P<obsc>BR|FG|VA|DU|SA|HZ|PY)?",
  r"(?P<other>PO|SQ|FC|SS|DS)?$"]

/-- 77 -/
def WINDSHEAR : RE := re! [r"^WS(?P<all>_ALL)?", r"_(RWY|R(?P<name>\d{2}[RCL]?))$"]

/-- 79-84 -/
def SEA_STATE : RE := re! [
  r"^W(?P<sign>M)?",
  r"(?P<temp>\d{2})",
  r"/(S(?P<state>\d)",
  r"|H(?P<height>\d{3}))$"]

/-- 86-94 -/
def RUNWAY_STATE : RE := re! [
  r"^R(?P<name>\d{2}([RLC])?)?/(",
  r"(?P<deposit>\d|/)",
  r"(?P<cont>\d|/)",
  r"(?P<depth>\d\d|//)",
  r"(?P<fric>\d\d|//)|",
  r"(?P<snoclo>SNOCLO)|",
  r"(?P<clrd>CLRD//))$"]

/-- 96 -/
def CHANGE_INDICATOR : RE := re! [r"^TEMPO|BECMG|NOSIG$"]

/-- 98-100 -/
def TREND_TIME_PERIOD : RE := re! [
  r"^(?P<prefix>FM|TL|AT)", r"(?P<hour>[01]\d|2[0-4])", r"(?P<min>[0-5]\d)$"]

/-- 102 (unused by the parsers) -/
def REMARK : RE := re! [r"^(?P<rmk>RMK(S)?)$"]

end MetarRegExp

namespace TafRegExp

/-- taf_regexp.py 3 -/
def AMD_COR : RE := re! [r"^(?P<mod>COR|AMD)$"]

/-- 5 -/
def NIL : RE := re! [r"^NIL$"]

/-- 7-12 -/
def VALID : RE := re! [
  r"^(?P<fmday>0[1-9]|[12][0-9]|3[01])",
  r"(?P<fmhour>[0-1]\d|2[0-3])/",
  r"(?P<tlday>0[1-9]|[12][0-9]|3[01])",
  r"(?P<tlhour>[0-1]\d|2[0-4])$"]

/-- 14 -/
def CANCELLED : RE := re! [r"^CNL$"]

/-- 16-21 -/
def WIND : RE := re! [
  r"^(?P<dir>([0-2][0-9]|3[0-6])0|VRB)",
  r"P?(?P<speed>\d{2,3})",
  r"(G(P)?(?P<gust>\d{2,3}))?",
  r"(?P<units>KT|MPS)$"]

/-- 23-30 -/
def VISIBILITY : RE := re! [
  r"^(?P<vis>\d{4})",
  r"(?P<dir>[NSEW]([EW])?)?|",
  r"(M|P)?(?P<integer>\d{1,2})?_?",
  r"(?P<fraction>\d/\d)?",
  r"(?P<units>SM|KM|M|U)|",
  r"(?P<cavok>CAVOK)$"]

/-- 32-38 -/
def TEMPERATURE : RE := re! [
  r"T(?P<type>N|X)",
  r"(?P<sign>M)?",
  r"(?P<temp>\d{2})/",
  r"(?P<day>0[1-9]|[12][0-9]|3[01])",
  r"(?P<hour>[0-1]\d|2[0-3])Z"]

/-- 40-46 -/
def CHANGE_INDICATOR : RE := re! [
  r"^TEMPO|BECMG",
  r"|FM(?P<day>0[1-9]|[12][0-9]|3[01])",
  r"(?P<hour>[0-1]\d|2[0-3])",
  r"(?P<minute>[0-5]\d)",
  r"|PROB[34]0(_TEMPO)?$"]

end TafRegExp

end Verif
