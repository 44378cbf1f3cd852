import Verif.Model.Basic

/-!
# Model of the global configuration, config.py

The library reads `Config` in two ways.

* The class attributes `cartesian_order`, `normalization`, `use_fused_tensor` are used as *default values of keyword
  arguments* (so3/irreps.py:45-46, 176, 224, 277, 426-427, 512-513, so3/rotations.py:376, nn/wrappers.py:61) and as
  *default values of module fields* (nn/modules.py:412, 743, 1145-1146, 1242-1243).  Python evaluates both when the
  defining module is imported, that is once, before any user code can call a setter on the fully imported package.
* The four cache paths are read at call time (so3/_*_lut.py).

`World` therefore holds the live configuration and the values which were bound at import.
-/

namespace E3x

/-- The class attributes of `Config`, config.py:43-49. Paths are strings. -/
structure Config where
  cartesianOrder : Bool
  useFusedTensor : Bool
  normalization : String
  sphericalHarmonicsCache : Option String
  clebschGordanCache : Option String
  wignerDCache : Option String
  tensorConversionCache : Option String
  deriving DecidableEq

/-- Initial values, config.py:43-49. -/
def Config.initial : Config := ⟨true, false, "racah", none, none, none, none⟩

/-- `valid_normalizations`, so3/_normalization.py:21. -/
def validNormalizations : List String := ["4pi", "orthonormal", "racah", "schmidt"]

/-- `check_normalization_is_valid`, so3/_normalization.py:26-32. -/
def checkNormalizationIsValid (s : String) : Except Err Unit :=
  if s ∉ validNormalizations then .error .valueError else .ok ()

/-- `epath.Path(path) if path is not None else None` (config.py:97-99 and its three copies). -/
def toPath (p : Option String) : Option String := p.map fun s => s

/-- The setters, config.py:51-127. -/
inductive Setter where
  | cartesianOrder (b : Bool)
  | useFusedTensor (b : Bool)
  | normalization (s : String)
  | sphericalHarmonicsCache (p : Option String)
  | clebschGordanCache (p : Option String)
  | wignerDCache (p : Option String)
  | tensorConversionCache (p : Option String)

/-- The interpreter state: the live `Config` and the defaults bound when the package was imported. -/
structure World where
  config : Config
  bound : Config

/-- `import e3x`: the default values of arguments and fields are evaluated. -/
def importE3x : World := ⟨Config.initial, Config.initial⟩

/-- One setter call: the new state and the exception, if any (config.py:51-127). -/
def Setter.run (w : World) : Setter → World × Option Err
  | .cartesianOrder b => ({ w with config := { w.config with cartesianOrder := b } }, none)
  | .useFusedTensor b => ({ w with config := { w.config with useFusedTensor := b } }, none)
  | .normalization s =>
    match checkNormalizationIsValid s with
    | .error e => (w, some e)
    | .ok _ => ({ w with config := { w.config with normalization := s } }, none)
  | .sphericalHarmonicsCache p => ({ w with config := { w.config with sphericalHarmonicsCache := toPath p } }, none)
  | .clebschGordanCache p => ({ w with config := { w.config with clebschGordanCache := toPath p } }, none)
  | .wignerDCache p => ({ w with config := { w.config with wignerDCache := toPath p } }, none)
  | .tensorConversionCache p => ({ w with config := { w.config with tensorConversionCache := toPath p } }, none)

/-- A history of setter calls (exceptions are caught by the caller). -/
def runSetters (w : World) (h : List Setter) : World := h.foldl (fun w s => (s.run w).1) w

/-- The value of `cartesian_order` used by a call which passes `kw` (`none`: keyword omitted). -/
def effectiveCartesianOrder (w : World) (kw : Option Bool) : Bool := kw.getD w.bound.cartesianOrder

/-- The value of `normalization` used by a call which passes `kw`. -/
def effectiveNormalization (w : World) (kw : Option String) : String := kw.getD w.bound.normalization

/-- The value of the field `use_fused_tensor` of a module constructed with `kw`. -/
def effectiveUseFusedTensor (w : World) (kw : Option Bool) : Bool := kw.getD w.bound.useFusedTensor

/-- The cache path read by a Clebsch-Gordan lookup, so3/_clebsch_gordan_lut.py:131, 148, 187. -/
def effectiveClebschGordanCache (w : World) : Option String := w.config.clebschGordanCache

/-- The cache path read by a spherical harmonics lookup, so3/_spherical_harmonics_lut.py:148, 165, 206. -/
def effectiveSphericalHarmonicsCache (w : World) : Option String := w.config.sphericalHarmonicsCache

/-- The cache path read by a Wigner-D lookup, so3/_wigner_d_lut.py:129, 146, 213. -/
def effectiveWignerDCache (w : World) : Option String := w.config.wignerDCache

/-- The cache path read by a tensor conversion lookup, so3/_tensor_conversion_lut.py:274, 291, 314. -/
def effectiveTensorConversionCache (w : World) : Option String := w.config.tensorConversionCache

end E3x
