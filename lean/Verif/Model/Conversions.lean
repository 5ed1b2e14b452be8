import Verif.Py.Float

/- Model of `aeromet_py/utils/conversions.py`. -/

namespace Verif.Conv
open Verif.F64

-- Distance conversions, lines 7-16
def FT_TO_M : F64 := lit 0.3048                         -- 7
def SMI_TO_KM : F64 := lit 1.852                        -- 8
def KM_TO_SMI : F64 := div (ofNat 1) SMI_TO_KM          -- 9
def KM_TO_M : F64 := ofNat 1000                         -- 10 (an `int`, used as factor of floats)
def M_TO_KM : F64 := lit (1 / 1000)                     -- 11 (`int / int`, correctly rounded)
def M_TO_SMI : F64 := mul M_TO_KM KM_TO_SMI             -- 12
def M_TO_FT : F64 := div (ofNat 1) FT_TO_M              -- 13
def M_TO_DM : F64 := ofNat 10                           -- 14
def M_TO_CM : F64 := ofNat 100                          -- 15
def M_TO_IN : F64 := lit 39.3701                        -- 16

-- Direction conversions, lines 19-20; `math.pi` is the double 3.141592653589793
def DEGREES_TO_RADIANS : F64 := div (lit 3.141592653589793) (ofNat 180)  -- 19
def DEGREES_TO_GRADIANS : F64 := lit 1.11111111         -- 20

-- Speed conversions, lines 23-26
def KNOT_TO_MPS : F64 := lit 0.51444444                 -- 23
def KNOT_TO_MIPH : F64 := lit 1.15078                   -- 24
def KNOT_TO_KPH : F64 := lit 1.852                      -- 25
def MPS_TO_KNOT : F64 := div (ofNat 1) KNOT_TO_MPS      -- 26

-- Pressure conversions, lines 29-35
def HPA_TO_INHG : F64 := lit 0.02953                    -- 29
def INHG_TO_HPA : F64 := div (ofNat 1) HPA_TO_INHG      -- 30
def HPA_TO_BAR : F64 := lit 0.001                       -- 31
def BAR_TO_HPA : F64 := div (ofNat 1) HPA_TO_BAR        -- 32
def MBAR_TO_HPA : F64 := div BAR_TO_HPA (ofNat 1000)    -- 33
def HPA_TO_MBAR : F64 := mul HPA_TO_BAR (ofNat 1000)    -- 34
def HPA_TO_ATM : F64 := div (ofNat 1) (lit 1013.25)     -- 35

-- Temperature conversions
/-- 38-40 -/
def celsius_to_kelvin (t : F64) : F64 := add t (lit 273.15)
/-- 42-44 -/
def kelvin_to_celsius (t : F64) : F64 := sub t (lit 273.15)
/-- 46-48 -/
def celsius_to_fahrenheit (t : F64) : F64 := add (div (mul t (ofNat 9)) (ofNat 5)) (ofNat 32)
/-- 50-52 -/
def fahrenheit_to_celsius (t : F64) : F64 := div (mul (sub t (ofNat 32)) (ofNat 5)) (ofNat 9)
/-- 54-56 -/
def celsius_to_rankine (t : F64) : F64 := add (div (mul t (ofNat 9)) (ofNat 5)) (lit 491.67)
/-- 58-60 -/
def rankine_to_celsius (t : F64) : F64 := div (mul (sub t (lit 491.67)) (ofNat 5)) (ofNat 9)

end Verif.Conv
