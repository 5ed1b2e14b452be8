import Verif.Model.Uses

/-
Specification of what the use of a report may change: the positions of the iterators of its lists
and the text buffers of the changes of a TAF, nothing else.
-/

namespace Verif.Spec

/-- A list of groups with its iterator at the start. -/
def rewound {α : Type} (g : GroupList α) : GroupList α := { g with n := 0 }

def rewoundCore (c : Core) : Core := { c with weathers := rewound c.weathers, clouds := rewound c.clouds }

def rewoundTrend (p : ChangePeriod) : ChangePeriod := { p with core := rewoundCore p.core }

/-- A METAR with all its iterators at the start. -/
def rewoundMetar (r : Metar) : Metar :=
  { r with
    core := rewoundCore r.core, runwayRanges := rewound r.runwayRanges,
    windshears := rewound r.windshears,
    weatherTrends := { rewound r.weatherTrends with list := r.weatherTrends.list.map rewoundTrend } }

/-- A change without its text buffer. -/
def blankChange (x : ChangeForecasted) : ChangeForecasted := { x with core := { x.core with string := [] } }

def rewoundChange (x : ChangeForecasted) : ChangeForecasted := { x with core := rewoundCore x.core }

/-- A TAF with all its iterators at the start. -/
def rewoundTaf (r : Taf) : Taf :=
  { r with
    core := rewoundCore r.core, maxTemperatures := rewound r.maxTemperatures,
    minTemperatures := rewound r.minTemperatures,
    changes := { rewound r.changes with list := r.changes.list.map rewoundChange } }

/-- A TAF without the text buffers of its changes. -/
def blankTaf (r : Taf) : Taf :=
  { r with changes := { r.changes with list := r.changes.list.map blankChange } }

/-- The use of a METAR does not iterate over the lists of a trend by hand and does not ask a trend
`should_be_cavok()`. -/
def TrendsLeftAlone (us : List MetarUse) : Prop := ∀ i u, .trend i (.core u) ∉ us

/-- The same for the changes of a TAF. -/
def ChangesLeftAlone (us : List TafUse) : Prop := ∀ i u, .change i (.core u) ∉ us

end Verif.Spec
