import Verif.Model.Names
/-
  Model of `AddresseeHelper::initSettings`, src/addresseehelper.cpp:40-70: which words are titles, family name prefixes and suffixes.
-/
namespace KC

/-- The entries of group "General" in the configuration file kabcrc; a missing entry is an empty list, or `none`. -/
structure NameConfig where
  prefixes : List QString := []
  inclusions : List QString := []
  suffixes : List QString := []
  treatAsFamilyName : Option Bool := none

/-- `addToSet`, addresseehelper.cpp:31-38. -/
def addToSet (list set : List QString) : List QString :=
  list.foldl (fun set str => if !str.isEmpty then (if str ∈ set then set else str :: set) else set) set

/-- `mTitles` after `initSettings`, addresseehelper.cpp:46-51, 66. `tr` is `i18n`. -/
def titleSet (tr : QString → QString) (cfg : NameConfig) : List QString :=
  addToSet cfg.prefixes [tr (q! "Dr."), tr (q! "Miss"), tr (q! "Mr."), tr (q! "Mrs."), tr (q! "Ms."), tr (q! "Prof.")]
/-- `mSuffixes`, addresseehelper.cpp:53-57, 68. -/
def suffixSet (tr : QString → QString) (cfg : NameConfig) : List QString :=
  addToSet cfg.suffixes [tr (q! "I"), tr (q! "II"), tr (q! "III"), tr (q! "Jr."), tr (q! "Sr.")]
/-- `mPrefixes`, addresseehelper.cpp:59-61, 67. -/
def prefixSet (cfg : NameConfig) : List QString := addToSet cfg.inclusions [q! "van", q! "von", q! "de"]

/-- `AddresseeHelper`, addresseehelper.cpp:40-90: `containsTitle`, `containsPrefix`, `containsSuffix`, `treatAsFamilyName`. -/
def helperOf (tr lower : QString → QString) (cfg : NameConfig) : NameHelper where
  title w := w ∈ titleSet tr cfg
  prefix_ w := w ∈ prefixSet cfg
  suffix w := w ∈ suffixSet tr cfg
  treatAsFamilyName := cfg.treatAsFamilyName.getD true
  lower := lower

end KC
