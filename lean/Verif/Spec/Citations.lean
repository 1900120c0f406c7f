import Verif.Model.Citations

/-!
# What the citation record should be
-/

namespace Exo

/-- The work of others each component rests on, as documented (docs, class attribute `__citations__`): the keys to be acknowledged. -/
def Component.restsOn : Component → Option String
  | .keplerianOrbit | .ttvOrbit => some "astropy"
  | .limbDarkLightCurve | .secondaryEclipseLightCurve => some "starry"
  | .quadLimbDark => some "kipping13"
  | .kipping13 => some "kipping13b"
  | .vaneylen19 => some "vaneylen19"
  | _ => none

/-- The components that are random variables: the priors of `exoplanet.distributions`. Orbits and light curves are not. -/
def Component.IsPrior (c : Component) : Prop :=
  c = .quadLimbDark ∨ c = .kipping13 ∨ c = .vaneylen19 ∨ c = .angle ∨ c = .unitDisk ∨ c = .impactParameter

/-- `Uses h s m c`: in the course of the program `h`, started inside the nested blocks `s`, component `c` is constructed for model
`m`: either `m` is given explicitly, or `m` is the innermost open block. -/
inductive Uses : List CiteOp → List ModelId → ModelId → Component → Prop where
  | explicit (c m h s) : Uses (.construct c (some m) :: h) s m c
  | context (c m h s) : Uses (.construct c none :: h) (m :: s) m c
  | afterEnter {h s m c} (m') : Uses h (m' :: s) m c → Uses (.enter m' :: h) s m c
  | afterLeave {h s m c} : Uses h s.tail m c → Uses (.leave :: h) s m c
  | later {h s m c} (c' o) : Uses h s m c → Uses (.construct c' o :: h) s m c

/-- The keys the program makes `m` rest on. -/
def Cited (h : List CiteOp) (m : ModelId) (k : String) : Prop :=
  ∃ c, Uses h [] m c ∧ c.restsOn = some k

/-- The keys acknowledged whatever is used, in the citation list: ArviZ and, on PyMC3, PyMC3 and Theano. -/
def fixedCites : Backend → List String
  | .pymc => ["exoplanet:arviz"]
  | .pymc3 => ["exoplanet:arviz", "exoplanet:pymc3", "exoplanet:theano"]

/-- The BibTeX entries printed whatever is used. -/
def fixedBib (bibtex : String → String) : Backend → List String
  | .pymc => [bibtex "exoplanet", bibtex "arviz"]
  | .pymc3 => [bibtex "exoplanet", bibtex "arviz", bibtex "pymc3", bibtex "theano"]

/-- Citation keys per table key, for the keys components use. -/
def citesOf : String → List String
  | "astropy" => ["exoplanet:astropy13", "exoplanet:astropy18"]
  | "starry" => ["exoplanet:luger18", "exoplanet:agol20"]
  | "kipping13" => ["exoplanet:kipping13"]
  | "kipping13b" => ["exoplanet:kipping13b"]
  | "vaneylen19" => ["exoplanet:vaneylen19"]
  | _ => []

/-- The acknowledgement sentence listing the given citation keys. -/
def acknowledgement (keys : List String) : String :=
  "This research made use of \\textsf{exoplanet} \\citep{exoplanet:joss, exoplanet:zenodo} and its dependencies \\citep{"
    ++ ", ".intercalate keys ++ "}."

end Exo
