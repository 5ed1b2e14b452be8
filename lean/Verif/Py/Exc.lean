/-
Python exceptions as values.

Every function of the library that may raise is modelled as a function into `Except Exc _`;
`throw` is `raise`, and the first exception raised propagates to the caller (no handler in the
library catches an exception of another library function, except where modelled explicitly).
-/

namespace Verif

/-- The exception classes that can leave a library function.
`parser` carries the message of `ParserError`
(`reports/metar.py` 257-263, `reports/taf.py` 187-193);
`range` is the library's own `RangeError` (`reports/models/base/errors.py` 5-6);
the others are Python built-ins. -/
inductive Exc where
  | assertion   -- AssertionError
  | value       -- ValueError
  | type        -- TypeError
  | zeroDiv     -- ZeroDivisionError
  | range       -- RangeError
  | overflow    -- OverflowError
  | attribute   -- AttributeError
  | index       -- IndexError
  | key         -- KeyError
  | parser (msg : List Nat)  -- ParserError
deriving DecidableEq, Repr

end Verif
