import Verif.Model.PyMC
import Mathlib.Data.List.Dedup

/-!
# Citations (src/exoplanet/citations.py)

A world holds the stack of active `with model:` blocks and, for each model, its attribute `__citations__` (`none`: attribute not set).
The BibTeX text of an entry is left abstract (`bibtex key`), as is `textwrap.wrap`.
-/

namespace Exo

/-- Identity of a `pm.Model` object. -/
abbrev ModelId := ℕ

/-- The values of `CITATIONS`: the tuple of citation keys and the BibTeX text. -/
structure CiteEntry where
  cites : List String
  bib : String
  deriving DecidableEq

/-- The keys of the table `CITATIONS` with their first components (citations.py:57-431). -/
def citeKeys : List (String × List String) :=
  [("exoplanet", ["exoplanet:joss", "exoplanet:zenodo"]),
   ("pymc3", ["exoplanet:pymc3"]),
   ("theano", ["exoplanet:theano"]),
   ("arviz", ["exoplanet:arviz"]),
   ("astropy", ["exoplanet:astropy13", "exoplanet:astropy18"]),
   ("espinoza18", ["exoplanet:espinoza18"]),
   ("kipping13", ["exoplanet:kipping13"]),
   ("kipping13b", ["exoplanet:kipping13b"]),
   ("starry", ["exoplanet:luger18", "exoplanet:agol20"]),
   ("celerite", ["exoplanet:foremanmackey17", "exoplanet:foremanmackey18"]),
   ("rebound", ["exoplanet:rebound"]),
   ("reboundias15", ["exoplanet:reboundias15"]),
   ("vaneylen19", ["exoplanet:vaneylen19"]),
   ("reboundx", ["exoplanet:reboundx"])]

/-- `CITATIONS[k]` (citations.py:57-431), a `KeyError` for an unknown key. -/
def citationsLookup (bibtex : String → String) (k : String) : Except PyErr CiteEntry :=
  match citeKeys.find? (fun p => p.1 == k) with
  | some p => .ok ⟨p.2, bibtex k⟩
  | none => .error (.keyError k)

/-- The ordered dict `model.__citations__`. -/
abbrev CiteDict := List (String × CiteEntry)

/-- `d[k] = v` for an insertion-ordered dict: an existing key keeps its place. -/
def CiteDict.set (d : CiteDict) (k : String) (v : CiteEntry) : CiteDict :=
  if d.any (fun p => p.1 == k) then d.map (fun p => if p.1 == k then (k, v) else p) else d ++ [(k, v)]

/-- The state seen by citations.py: the stack of active model contexts (innermost first) and the attribute `__citations__` of each
model. -/
structure CiteWorld where
  stack : List ModelId
  dict : ModelId → Option CiteDict

/-- `pm.modelcontext(model)`: the given model, else the innermost active one, else a `TypeError`. -/
def modelcontext (w : CiteWorld) : Option ModelId → Except PyErr ModelId
  | some m => .ok m
  | none => match w.stack with
    | [] => .error (.typeError "no model on the context stack")
    | m :: _ => .ok m

/-- Write the attribute `__citations__` of one model. -/
def CiteWorld.write (w : CiteWorld) (m : ModelId) (d : CiteDict) : CiteWorld :=
  { w with dict := fun m' => if m' = m then some d else w.dict m' }

/-- The loop `for k in citations: model.__citations__[k] = CITATIONS[k]` (citations.py:14-15); the entries written before a `KeyError`
stay. -/
def addLoop (bibtex : String → String) (d : CiteDict) : List String → CiteDict × Except PyErr Unit
  | [] => (d, .ok ())
  | k :: ks => match citationsLookup bibtex k with
    | .ok v => addLoop bibtex (d.set k v) ks
    | .error e => (d, .error e)

/-- citations.py:9-18, `add_citations_to_model`: the world afterwards and how the call ended. The `except TypeError: pass` covers the
missing context. -/
def addCitationsToModel (bibtex : String → String) (ks : List String) (model : Option ModelId) (w : CiteWorld) :
    CiteWorld × Except PyErr Unit :=
  match modelcontext w model with
  | .error (.typeError _) => (w, .ok ())
  | .error e => (w, .error e)
  | .ok m =>
    let r := addLoop bibtex ((w.dict m).getD []) ks
    (w.write m r.1, r.2)

/-- `", ".join(sorted(cite))`: Python compares strings by code points, as `String`'s `≤` does. -/
def sortedStrings (l : List String) : List String := l.mergeSort (fun a b => decide (a ≤ b))

/-- citations.py:21-54, `get_citations_for_model`: the acknowledgement and the BibTeX text. -/
def getCitationsForModel (bibtex : String → String) (wrap : String → ℕ → List String) (be : Backend) (model : Option ModelId)
    (width : ℕ) (w : CiteWorld) : Except PyErr (String × String) := do
  let m ← modelcontext w model
  match w.dict m with
  | none => .ok ("", "")
  | some d =>
    let arviz ← citationsLookup bibtex "arviz"
    let exo ← citationsLookup bibtex "exoplanet"
    let pymc3 ← citationsLookup bibtex "pymc3"
    let theano ← citationsLookup bibtex "theano"
    let cite := arviz.cites ++ (if be = .pymc3 then pymc3.cites ++ theano.cites else []) ++ (d.map (fun p => p.2.cites)).flatten
    let bib := [exo.bib, arviz.bib] ++ (if be = .pymc3 then [pymc3.bib, theano.bib] else []) ++ d.map (fun p => p.2.bib)
    let txt := "This research made use of \\textsf{exoplanet} \\citep{exoplanet:joss, exoplanet:zenodo} and its dependencies \\citep{"
      ++ ", ".intercalate (sortedStrings cite) ++ "}."
    .ok ("\n".intercalate (wrap txt width), "\n".intercalate bib)

/-- The parts of exoplanet that are constructed inside a model. `TTVOrbit` forwards to `KeplerianOrbit` (ttv.py:142), and
`SecondaryEclipseLightCurve` builds two `LimbDarkLightCurve`s (secondary_eclipse.py:23-28); the others (`SimpleTransitOrbit`,
`InterpolatedLightCurve`, `angle`, `unit_disk`, `impact_parameter`) never touch the citations. -/
inductive Component where
  | keplerianOrbit
  | ttvOrbit
  | limbDarkLightCurve
  | secondaryEclipseLightCurve
  | quadLimbDark
  | kipping13
  | vaneylen19
  | simpleTransitOrbit
  | interpolatedLightCurve
  | angle
  | unitDisk
  | impactParameter
  deriving DecidableEq, Repr

/-- The calls of `add_citations_to_model` made by a constructor, in order: keplerian.py:73,97; limb_dark.py:39,42 (twice for the
secondary eclipse); distributions.py:85; eccentricity.py:34,158. -/
def Component.calls : Component → List (List String)
  | .keplerianOrbit => [["astropy"]]
  | .ttvOrbit => [["astropy"]]
  | .limbDarkLightCurve => [["starry"]]
  | .secondaryEclipseLightCurve => [["starry"], ["starry"]]
  | .quadLimbDark => [["kipping13"]]
  | .kipping13 => [["kipping13b"]]
  | .vaneylen19 => [["vaneylen19"]]
  | _ => []

/-- A distribution needs a model: registering its variables (or, in eccentricity.py:33,157, `pm.modelcontext(model)`) raises a
`TypeError` outside of one. Orbits and light curves do not. -/
def Component.needsModel : Component → Bool
  | .quadLimbDark | .kipping13 | .vaneylen19 | .angle | .unitDisk | .impactParameter => true
  | _ => false

/-- Run the calls of a constructor; an exception ends the constructor. -/
def runCalls (bibtex : String → String) (model : Option ModelId) : List (List String) → CiteWorld → CiteWorld × Except PyErr Unit
  | [], w => (w, .ok ())
  | ks :: kss, w => match addCitationsToModel bibtex ks model w with
    | (w', .ok ()) => runCalls bibtex model kss w'
    | (w', .error e) => (w', .error e)

/-- What a program can do: enter a model (`with model:`), leave it, construct a component, with or without the `model=` keyword. -/
inductive CiteOp where
  | enter (m : ModelId)
  | leave
  | construct (c : Component) (model : Option ModelId)
  deriving DecidableEq, Repr

/-- One step. `construct` is the citation part of the constructors listed at `Component`. -/
def citeStep (bibtex : String → String) (w : CiteWorld) : CiteOp → CiteWorld × Except PyErr Unit
  | .enter m => ({ w with stack := m :: w.stack }, .ok ())
  | .leave => ({ w with stack := w.stack.tail }, .ok ())
  | .construct c model =>
    match c.needsModel, modelcontext w model with
    | true, .error e => ((runCalls bibtex model c.calls w).1, .error e)
    | _, _ => runCalls bibtex model c.calls w

/-- A whole program, in which every exception is caught by the caller. -/
def citeRun (bibtex : String → String) (h : List CiteOp) (w : CiteWorld) : CiteWorld :=
  h.foldl (fun w op => (citeStep bibtex w op).1) w

/-- Before the program starts: no active model, no citations. -/
def CiteWorld.init : CiteWorld := ⟨[], fun _ => none⟩

end Exo
