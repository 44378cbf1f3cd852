import Mathlib.Tactic.SplitIfs
import Mathlib.Tactic.ByContra
import Verif.Model.Config

/-!
# C36: the configuration
-/

namespace E3x

namespace Spec

/-- The value last written by a setter of the given kind in a history, or `init` if there is none. `get` picks the
written value out of a successful setter call of that kind. -/
def lastWritten {α : Type} (get : Setter → Option α) (init : α) : List Setter → α
  | [] => init
  | s :: h => lastWritten get ((get s).getD init) h

/-- A call of `set_cartesian_order`. -/
def writesCartesianOrder : Setter → Option Bool
  | .cartesianOrder b => some b
  | _ => none

/-- A call of `set_use_fused_tensor`. -/
def writesUseFusedTensor : Setter → Option Bool
  | .useFusedTensor b => some b
  | _ => none

/-- A successful call of `set_normalization`. -/
def writesNormalization : Setter → Option String
  | .normalization s => if s = "4pi" ∨ s = "orthonormal" ∨ s = "racah" ∨ s = "schmidt" then some s else none
  | _ => none

/-- A call of `set_spherical_harmonics_cache`. -/
def writesSphericalHarmonicsCache : Setter → Option (Option String)
  | .sphericalHarmonicsCache p => some p
  | _ => none

/-- A call of `set_clebsch_gordan_cache`. -/
def writesClebschGordanCache : Setter → Option (Option String)
  | .clebschGordanCache p => some p
  | _ => none

/-- A call of `set_wigner_d_cache`. -/
def writesWignerDCache : Setter → Option (Option String)
  | .wignerDCache p => some p
  | _ => none

/-- A call of `set_tensor_conversion_cache`. -/
def writesTensorConversionCache : Setter → Option (Option String)
  | .tensorConversionCache p => some p
  | _ => none

end Spec

open Spec

theorem toPath_eq (p : Option String) : toPath p = p := by cases p <;> rfl

/-- After any history of setter calls, each attribute of `Config` holds what the last successful call of *its own*
setter wrote (the initial value if there was none); in particular unrelated settings are unaffected. -/
theorem config_history (w : World) (h : List Setter) :
    (runSetters w h).config =
      { cartesianOrder := lastWritten writesCartesianOrder w.config.cartesianOrder h
        useFusedTensor := lastWritten writesUseFusedTensor w.config.useFusedTensor h
        normalization := lastWritten writesNormalization w.config.normalization h
        sphericalHarmonicsCache := lastWritten writesSphericalHarmonicsCache w.config.sphericalHarmonicsCache h
        clebschGordanCache := lastWritten writesClebschGordanCache w.config.clebschGordanCache h
        wignerDCache := lastWritten writesWignerDCache w.config.wignerDCache h
        tensorConversionCache := lastWritten writesTensorConversionCache w.config.tensorConversionCache h } := by
  induction h generalizing w with
  | nil => rfl
  | cons s h ih =>
    show (runSetters (s.run w).1 h).config = _
    rw [ih]
    cases s with
    | normalization s =>
      by_cases hs : s ∈ validNormalizations
      · have hs' : s = "4pi" ∨ s = "orthonormal" ∨ s = "racah" ∨ s = "schmidt" := by
          simpa [validNormalizations] using hs
        simp [Setter.run, checkNormalizationIsValid, hs, lastWritten, writesCartesianOrder, writesUseFusedTensor,
          writesNormalization, hs', writesSphericalHarmonicsCache, writesClebschGordanCache, writesWignerDCache,
          writesTensorConversionCache]
      · have hs' : ¬ (s = "4pi" ∨ s = "orthonormal" ∨ s = "racah" ∨ s = "schmidt") := by
          simpa [validNormalizations] using hs
        simp [Setter.run, checkNormalizationIsValid, hs, lastWritten, writesCartesianOrder, writesUseFusedTensor,
          writesNormalization, hs', writesSphericalHarmonicsCache, writesClebschGordanCache, writesWignerDCache,
          writesTensorConversionCache]
    | _ =>
      simp [Setter.run, toPath_eq, lastWritten, writesCartesianOrder, writesUseFusedTensor,
        writesNormalization, writesSphericalHarmonicsCache, writesClebschGordanCache, writesWignerDCache,
        writesTensorConversionCache]

/-- **C36 (second and third clause).** After any history of setter calls on the freshly imported package, each
attribute of `Config` holds what the last successful call of its own setter wrote, or its initial value; unrelated
settings are unaffected. -/
theorem C36_attributes (h : List Setter) :
    (runSetters importE3x h).config =
      { cartesianOrder := lastWritten writesCartesianOrder true h
        useFusedTensor := lastWritten writesUseFusedTensor false h
        normalization := lastWritten writesNormalization "racah" h
        sphericalHarmonicsCache := lastWritten writesSphericalHarmonicsCache none h
        clebschGordanCache := lastWritten writesClebschGordanCache none h
        wignerDCache := lastWritten writesWignerDCache none h
        tensorConversionCache := lastWritten writesTensorConversionCache none h } :=
  config_history importE3x h

/-- **C36.** An invalid normalization raises ValueError and changes nothing; no other setter call raises. -/
theorem C36_invalid_normalization (w : World) (s : Setter) :
    ((∃ n, s = .normalization n ∧ n ∉ ["4pi", "orthonormal", "racah", "schmidt"]) →
      s.run w = (w, some .valueError)) ∧
    ((¬ ∃ n, s = .normalization n ∧ n ∉ ["4pi", "orthonormal", "racah", "schmidt"]) → (s.run w).2 = none) := by
  constructor
  · rintro ⟨n, rfl, hn⟩
    have hn' : n ∉ validNormalizations := hn
    simp only [Setter.run, checkNormalizationIsValid, hn', not_false_eq_true, if_true]
  · intro h
    cases s with
    | normalization n =>
      have hn : n ∈ validNormalizations := by
        by_contra hc; exact h ⟨n, rfl, hc⟩
      simp only [Setter.run, checkNormalizationIsValid, hn, not_true, if_false]
    | _ => rfl

/-- **C36.** After any history, the configured normalization is one of the four valid names. -/
theorem C36_normalization_valid (h : List Setter) :
    (runSetters importE3x h).config.normalization ∈ ["4pi", "orthonormal", "racah", "schmidt"] := by
  rw [C36_attributes]
  have key : ∀ (h : List Setter) (init : String), init ∈ ["4pi", "orthonormal", "racah", "schmidt"] →
      lastWritten writesNormalization init h ∈ ["4pi", "orthonormal", "racah", "schmidt"] := by
    intro h
    induction h with
    | nil => intro init hi; exact hi
    | cons s h ih =>
      intro init hi
      apply ih
      cases s with
      | normalization s =>
        simp only [writesNormalization]
        split_ifs with hs
        · simpa using hs
        · exact hi
      | _ => exact hi
  exact key h "racah" (by simp)

/-- **C36 (first clause, the part which holds).** The cache paths take effect for subsequent lookups: a lookup uses
the path of the last call of its setter. -/
theorem C36_caches_partial (h : List Setter) :
    effectiveSphericalHarmonicsCache (runSetters importE3x h) = lastWritten writesSphericalHarmonicsCache none h ∧
    effectiveClebschGordanCache (runSetters importE3x h) = lastWritten writesClebschGordanCache none h ∧
    effectiveWignerDCache (runSetters importE3x h) = lastWritten writesWignerDCache none h ∧
    effectiveTensorConversionCache (runSetters importE3x h) = lastWritten writesTensorConversionCache none h := by
  simp only [effectiveSphericalHarmonicsCache, effectiveClebschGordanCache, effectiveWignerDCache,
    effectiveTensorConversionCache, C36_attributes, and_self]

/-- Setters never touch bound defaults. -/
theorem runSetters_bound (w : World) (h : List Setter) : (runSetters w h).bound = w.bound := by
  induction h generalizing w with
  | nil => rfl
  | cons s h ih =>
    show (runSetters (s.run w).1 h).bound = _
    rw [ih]
    cases s with
    | normalization s =>
      by_cases hs : s ∈ validNormalizations <;> simp [Setter.run, checkNormalizationIsValid, hs]
    | _ => rfl

/-- **C36 (first clause, negated).** No history of setter calls after the import changes what a call that omits the
keyword uses: it is always Cartesian order, Racah normalisation and unfused tensor products. A keyword which is passed
is always used. -/
theorem C36_defaults_frozen (h : List Setter) (kwOrder kwFused : Option Bool) (kwNorm : Option String) :
    effectiveCartesianOrder (runSetters importE3x h) kwOrder = kwOrder.getD true ∧
    effectiveNormalization (runSetters importE3x h) kwNorm = kwNorm.getD "racah" ∧
    effectiveUseFusedTensor (runSetters importE3x h) kwFused = kwFused.getD false := by
  simp only [effectiveCartesianOrder, effectiveNormalization, effectiveUseFusedTensor, runSetters_bound]
  exact ⟨rfl, rfl, rfl⟩

/-- **C36 (first clause, witness of its failure).** After `Config.set_cartesian_order(False)` a call that does not
pass the keyword still uses Cartesian order; likewise for the other two settings. -/
theorem C36_setters_ineffective_partial :
    effectiveCartesianOrder (runSetters importE3x [.cartesianOrder false]) none ≠ false ∧
    effectiveNormalization (runSetters importE3x [.normalization "4pi"]) none ≠ "4pi" ∧
    effectiveUseFusedTensor (runSetters importE3x [.useFusedTensor true]) none ≠ true := by
  refine ⟨by decide, by decide, by decide⟩

example : (runSetters importE3x [.normalization "4pi", .normalization "x", .wignerDCache (some "/a")]).config =
    ⟨true, false, "4pi", none, none, some "/a", none⟩ := by decide

end E3x
