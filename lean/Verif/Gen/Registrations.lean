/-!
# Registered translators and matchers

Generated by `tools/gen_registrations.py` from the decorators in
`wilson/translate/__init__.py` and `wilson/match/__init__.py`; do not edit.
-/

set_option autoImplicit false

namespace Verif

/-- wilson/translate/__init__.py:10-155: names `(eft, from, to)` of the registered translators. -/
def registeredTranslators : List (String × String × String) :=
  [("SMEFT", "Higgs-Warsaw up", "Warsaw up"),
   ("SMEFT", "Higgs-Warsaw up", "Warsaw"),
   ("SMEFT", "Warsaw up", "Higgs-Warsaw up"),
   ("SMEFT", "Warsaw", "Higgs-Warsaw up"),
   ("SMEFT", "Warsaw", "Warsaw mass"),
   ("SMEFT", "Warsaw", "Warsaw up"),
   ("SMEFT", "Warsaw up", "Warsaw"),
   ("WET", "flavio", "JMS"),
   ("WET-4", "flavio", "JMS"),
   ("WET-3", "flavio", "JMS"),
   ("WET", "JMS", "flavio"),
   ("WET-4", "JMS", "flavio"),
   ("WET-3", "JMS", "flavio"),
   ("WET", "Bern", "flavio"),
   ("WET", "flavio", "Bern"),
   ("WET-4", "Bern", "flavio"),
   ("WET-4", "flavio", "Bern"),
   ("WET-3", "Bern", "flavio"),
   ("WET-3", "flavio", "Bern"),
   ("WET", "JMS", "EOS"),
   ("WET", "JMS", "Bern"),
   ("WET-4", "JMS", "Bern"),
   ("WET-3", "JMS", "Bern"),
   ("WET", "Bern", "JMS"),
   ("WET-4", "Bern", "JMS"),
   ("WET-3", "Bern", "JMS"),
   ("WET", "JMS", "formflavor"),
   ("WET", "FlavorKit", "JMS"),
   ("WET", "JMS", "FlavorKit"),
   ("WET", "FlavorKit", "flavio")]

/-- wilson/match/__init__.py:10-85: names `(from_eft, from_basis, to_eft, to_basis)` of the registered matchers. -/
def registeredMatchers : List (String × String × String × String) :=
  [("SMEFT", "Warsaw up", "WET", "JMS"),
   ("SMEFT", "Warsaw", "WET", "JMS"),
   ("SMEFT", "Warsaw", "WET", "flavio"),
   ("SMEFT", "Warsaw up", "WET", "flavio"),
   ("SMEFT", "Warsaw", "WET", "EOS"),
   ("SMEFT", "Warsaw", "WET", "Bern"),
   ("WET", "flavio", "WET-4", "flavio"),
   ("WET-4", "flavio", "WET-3", "flavio"),
   ("WET", "Bern", "WET-4", "Bern"),
   ("WET-4", "Bern", "WET-3", "Bern"),
   ("WET", "JMS", "WET-4", "JMS"),
   ("WET-4", "JMS", "WET-3", "JMS"),
   ("WET-3", "JMS", "WET-2", "JMS")]

end Verif
