import Verif.Model.LookupTables

/-!
# The spherical-harmonics table shipped with the package

The content of so3/_spherical_harmonics_lut.npz. The arrays `cm`, `i0` and `i1` of the archive list the nonzero
entries of the table in row-major order; here the entries of each row are grouped. Every float64 number is written
exactly, as `± M / 2ᴱ`. Generated from the archive.
-/

namespace E3x

/-- An entry of a row: its column, whether it is negative, and `M` and `E` of its absolute value `M / 2ᴱ`. -/
structure ShippedEntry where
  column : Nat
  negative : Bool
  mantissa : Nat
  exponent : Nat

/-- The float64 number of an entry. -/
noncomputable def ShippedEntry.value (e : ShippedEntry) : ℝ :=
  (if e.negative then -1 else 1) * (e.mantissa : ℝ) / 2 ^ e.exponent

/-- The rows of `ls` for the monomials of degree 0 and the entries of `cm` in these rows:
so3/_spherical_harmonics_lut.npz. -/
def shippedRows0 : List (List Nat × List ShippedEntry) := [
  ([0, 0, 0], [⟨0, false, 1, 0⟩])]

/-- The rows of `ls` for the monomials of degree 1 and the entries of `cm` in these rows:
so3/_spherical_harmonics_lut.npz. -/
def shippedRows1 : List (List Nat × List ShippedEntry) := [
  ([0, 0, 1], [⟨2, false, 1, 0⟩]),
  ([0, 1, 0], [⟨1, false, 1, 0⟩]),
  ([1, 0, 0], [⟨3, false, 1, 0⟩])]

/-- The rows of `ls` for the monomials of degree 2 and the entries of `cm` in these rows:
so3/_spherical_harmonics_lut.npz. -/
def shippedRows2 : List (List Nat × List ShippedEntry) := [
  ([0, 0, 2], [⟨6, false, 1, 0⟩]),
  ([0, 2, 0], [⟨6, true, 1, 1⟩, ⟨8, true, 3900231685776981, 52⟩]),
  ([2, 0, 0], [⟨6, true, 1, 1⟩, ⟨8, false, 3900231685776981, 52⟩]),
  ([0, 1, 1], [⟨5, false, 3900231685776981, 51⟩]),
  ([1, 0, 1], [⟨7, false, 3900231685776981, 51⟩]),
  ([1, 1, 0], [⟨4, false, 3900231685776981, 51⟩])]

/-- The rows of `ls` for the monomials of degree 3 and the entries of `cm` in these rows:
so3/_spherical_harmonics_lut.npz. -/
def shippedRows3 : List (List Nat × List ShippedEntry) := [
  ([0, 0, 3], [⟨12, false, 1, 0⟩]),
  ([0, 3, 0], [⟨9, true, 7120816245988179, 53⟩, ⟨11, true, 2757880273211543, 52⟩]),
  ([3, 0, 0], [⟨13, true, 2757880273211543, 52⟩, ⟨15, false, 7120816245988179, 53⟩]),
  ([0, 1, 2], [⟨11, false, 2757880273211543, 50⟩]),
  ([0, 2, 1], [⟨12, true, 3, 1⟩, ⟨14, true, 4360591588697965, 51⟩]),
  ([1, 0, 2], [⟨13, false, 2757880273211543, 50⟩]),
  ([1, 2, 0], [⟨13, true, 2757880273211543, 52⟩, ⟨15, true, 2670306092245567, 50⟩]),
  ([2, 0, 1], [⟨12, true, 3, 1⟩, ⟨14, false, 4360591588697965, 51⟩]),
  ([2, 1, 0], [⟨9, false, 2670306092245567, 50⟩, ⟨11, true, 2757880273211543, 52⟩]),
  ([1, 1, 1], [⟨10, false, 4360591588697965, 50⟩])]

/-- The rows of `ls` for the monomials of degree 4 and the entries of `cm` in these rows:
so3/_spherical_harmonics_lut.npz. -/
def shippedRows4 : List (List Nat × List ShippedEntry) := [
  ([0, 0, 4], [⟨20, false, 1, 0⟩]),
  ([0, 4, 0], [⟨20, false, 3, 3⟩, ⟨22, false, 629397181890197, 50⟩, ⟨24, false, 6660913676665389, 53⟩]),
  ([4, 0, 0], [⟨20, false, 3, 3⟩, ⟨22, true, 629397181890197, 50⟩, ⟨24, false, 6660913676665389, 53⟩]),
  ([0, 1, 3], [⟨19, false, 7120816245988179, 51⟩]),
  ([0, 3, 1], [⟨17, true, 4709977229668315, 51⟩, ⟨19, true, 2670306092245567, 50⟩]),
  ([1, 0, 3], [⟨21, false, 7120816245988179, 51⟩]),
  ([1, 3, 0], [⟨16, true, 6660913676665389, 51⟩, ⟨18, true, 629397181890197, 49⟩]),
  ([3, 0, 1], [⟨21, true, 2670306092245567, 50⟩, ⟨23, false, 4709977229668315, 51⟩]),
  ([3, 1, 0], [⟨16, false, 6660913676665389, 51⟩, ⟨18, true, 629397181890197, 49⟩]),
  ([0, 2, 2], [⟨20, true, 3, 0⟩, ⟨22, true, 1888191545670591, 49⟩]),
  ([2, 0, 2], [⟨20, true, 3, 0⟩, ⟨22, false, 1888191545670591, 49⟩]),
  ([2, 2, 0], [⟨20, false, 3, 2⟩, ⟨24, true, 2497842628749521, 49⟩]),
  ([1, 1, 2], [⟨18, false, 1888191545670591, 48⟩]),
  ([1, 2, 1], [⟨21, true, 2670306092245567, 50⟩, ⟨23, true, 883120730562809, 47⟩]),
  ([2, 1, 1], [⟨17, false, 883120730562809, 47⟩, ⟨19, true, 2670306092245567, 50⟩])]

/-- The rows of `ls` for the monomials of degree 5 and the entries of `cm` in these rows:
so3/_spherical_harmonics_lut.npz. -/
def shippedRows5 : List (List Nat × List ShippedEntry) := [
  ([0, 0, 5], [⟨30, false, 1, 0⟩]),
  ([0, 5, 0], [⟨25, false, 6319097554808695, 53⟩, ⟨27, false, 4709977229668315, 53⟩, ⟨29, false, 4360591588697965, 53⟩]),
  ([5, 0, 0], [⟨31, false, 4360591588697965, 53⟩, ⟨33, true, 4709977229668315, 53⟩, ⟨35, false, 6319097554808695, 53⟩]),
  ([0, 1, 4], [⟨29, false, 4360591588697965, 50⟩]),
  ([0, 4, 1], [⟨30, false, 15, 3⟩, ⟨32, false, 5768520456407433, 51⟩, ⟨34, false, 2497842628749521, 50⟩]),
  ([1, 0, 4], [⟨31, false, 4360591588697965, 50⟩]),
  ([1, 4, 0], [⟨31, false, 4360591588697965, 53⟩, ⟨33, false, 883120730562809, 49⟩, ⟨35, false, 7898871943510869, 51⟩]),
  ([4, 0, 1], [⟨30, false, 15, 3⟩, ⟨32, true, 5768520456407433, 51⟩, ⟨34, false, 2497842628749521, 50⟩]),
  ([4, 1, 0], [⟨25, false, 7898871943510869, 51⟩, ⟨27, true, 883120730562809, 49⟩, ⟨29, false, 4360591588697965, 53⟩]),
  ([0, 2, 3], [⟨30, true, 5, 0⟩, ⟨32, true, 5768520456407433, 50⟩]),
  ([0, 3, 2], [⟨27, true, 4709977229668315, 50⟩, ⟨29, true, 6540887383046947, 50⟩]),
  ([2, 0, 3], [⟨30, true, 5, 0⟩, ⟨32, false, 5768520456407433, 50⟩]),
  ([2, 3, 0], [⟨25, true, 7898871943510869, 50⟩, ⟨27, true, 4709977229668315, 52⟩, ⟨29, false, 4360591588697965, 52⟩]),
  ([3, 0, 2], [⟨31, true, 6540887383046947, 50⟩, ⟨33, false, 4709977229668315, 50⟩]),
  ([3, 2, 0], [⟨31, false, 4360591588697965, 52⟩, ⟨33, false, 4709977229668315, 52⟩, ⟨35, true, 7898871943510869, 50⟩]),
  ([1, 1, 3], [⟨28, false, 5768520456407433, 49⟩]),
  ([1, 3, 1], [⟨26, true, 2497842628749521, 48⟩, ⟨28, true, 5768520456407433, 50⟩]),
  ([3, 1, 1], [⟨26, false, 2497842628749521, 48⟩, ⟨28, true, 5768520456407433, 50⟩]),
  ([1, 2, 2], [⟨31, true, 6540887383046947, 50⟩, ⟨33, true, 883120730562809, 46⟩]),
  ([2, 1, 2], [⟨27, false, 883120730562809, 46⟩, ⟨29, true, 6540887383046947, 50⟩]),
  ([2, 2, 1], [⟨30, false, 15, 2⟩, ⟨34, true, 3746763943124281, 48⟩])]

/-- The rows of `ls` for the monomials of degree 6 and the entries of `cm` in these rows:
so3/_spherical_harmonics_lut.npz. -/
def shippedRows6 : List (List Nat × List ShippedEntry) := [
  ([0, 0, 6], [⟨42, false, 1, 0⟩]),
  ([0, 6, 0], [⟨42, true, 5, 4⟩, ⟨44, true, 2039479966069507, 52⟩, ⟨46, true, 8936553463969119, 54⟩,
    ⟨48, true, 6050075295530637, 53⟩]),
  ([6, 0, 0], [⟨42, true, 5, 4⟩, ⟨44, false, 2039479966069507, 52⟩, ⟨46, true, 8936553463969119, 54⟩,
    ⟨48, false, 6050075295530637, 53⟩]),
  ([0, 1, 5], [⟨41, false, 5159521548050053, 50⟩]),
  ([0, 5, 1], [⟨37, false, 5239518900738177, 51⟩, ⟨39, false, 6118439898208521, 51⟩, ⟨41, false, 3224700967531283, 50⟩]),
  ([1, 0, 5], [⟨43, false, 5159521548050053, 50⟩]),
  ([1, 5, 0], [⟨36, false, 2268778235823989, 49⟩, ⟨38, false, 8936553463969119, 52⟩, ⟨40, false, 2039479966069507, 51⟩]),
  ([5, 0, 1], [⟨43, false, 3224700967531283, 50⟩, ⟨45, true, 6118439898208521, 51⟩, ⟨47, false, 5239518900738177, 51⟩]),
  ([5, 1, 0], [⟨36, false, 2268778235823989, 49⟩, ⟨38, true, 8936553463969119, 52⟩, ⟨40, false, 2039479966069507, 51⟩]),
  ([0, 2, 4], [⟨42, true, 15, 1⟩, ⟨44, true, 2039479966069507, 48⟩]),
  ([0, 4, 2], [⟨42, false, 45, 3⟩, ⟨44, false, 2039479966069507, 48⟩, ⟨46, false, 5585345914980699, 50⟩]),
  ([2, 0, 4], [⟨42, true, 15, 1⟩, ⟨44, false, 2039479966069507, 48⟩]),
  ([2, 4, 0], [⟨42, true, 15, 4⟩, ⟨44, true, 2039479966069507, 52⟩, ⟨46, false, 5585345914980699, 51⟩,
    ⟨48, false, 1417986397389993, 47⟩]),
  ([4, 0, 2], [⟨42, false, 45, 3⟩, ⟨44, true, 2039479966069507, 48⟩, ⟨46, false, 5585345914980699, 50⟩]),
  ([4, 2, 0], [⟨42, true, 15, 4⟩, ⟨44, false, 2039479966069507, 52⟩, ⟨46, false, 5585345914980699, 51⟩,
    ⟨48, true, 1417986397389993, 47⟩]),
  ([0, 3, 3], [⟨39, true, 2039479966069507, 48⟩, ⟨41, true, 3224700967531283, 48⟩]),
  ([3, 0, 3], [⟨43, true, 3224700967531283, 48⟩, ⟨45, false, 2039479966069507, 48⟩]),
  ([3, 3, 0], [⟨36, true, 472662132463331, 45⟩, ⟨40, false, 2039479966069507, 50⟩]),
  ([1, 1, 4], [⟨40, false, 2039479966069507, 47⟩]),
  ([1, 4, 1], [⟨43, false, 3224700967531283, 50⟩, ⟨45, false, 4588829923656391, 49⟩, ⟨47, false, 6549398625922721, 49⟩]),
  ([4, 1, 1], [⟨37, false, 6549398625922721, 49⟩, ⟨39, true, 4588829923656391, 49⟩, ⟨41, false, 3224700967531283, 50⟩]),
  ([1, 2, 3], [⟨43, true, 3224700967531283, 48⟩, ⟨45, true, 6118439898208521, 48⟩]),
  ([1, 3, 2], [⟨38, true, 5585345914980699, 48⟩, ⟨40, true, 2039479966069507, 47⟩]),
  ([2, 1, 3], [⟨39, false, 6118439898208521, 48⟩, ⟨41, true, 3224700967531283, 48⟩]),
  ([2, 3, 1], [⟨37, true, 6549398625922721, 48⟩, ⟨39, true, 6118439898208521, 50⟩, ⟨41, false, 3224700967531283, 49⟩]),
  ([3, 1, 2], [⟨38, false, 5585345914980699, 48⟩, ⟨40, true, 2039479966069507, 47⟩]),
  ([3, 2, 1], [⟨43, false, 3224700967531283, 49⟩, ⟨45, false, 6118439898208521, 50⟩, ⟨47, true, 6549398625922721, 48⟩]),
  ([2, 2, 2], [⟨42, false, 45, 2⟩, ⟨46, true, 8378018872471049, 48⟩])]

/-- The rows of `ls` for the monomials of degree 7 and the entries of `cm` in these rows:
so3/_spherical_harmonics_lut.npz. -/
def shippedRows7 : List (List Nat × List ShippedEntry) := [
  ([0, 0, 7], [⟨56, false, 1, 0⟩]),
  ([0, 7, 0], [⟨49, true, 5829998432128383, 53⟩, ⟨51, true, 4278049268158919, 53⟩, ⟨53, true, 967410290259385, 51⟩,
    ⟨55, true, 1861781971660233, 52⟩]),
  ([7, 0, 0], [⟨57, true, 1861781971660233, 52⟩, ⟨59, false, 967410290259385, 51⟩, ⟨61, true, 4278049268158919, 53⟩,
    ⟨63, false, 5829998432128383, 53⟩]),
  ([0, 1, 6], [⟨55, false, 2978851154656373, 49⟩]),
  ([0, 6, 1], [⟨56, true, 35, 4⟩, ⟨58, true, 3420311882160287, 50⟩, ⟨60, true, 3208536951119189, 50⟩,
    ⟨62, true, 5453464174613415, 51⟩]),
  ([1, 0, 6], [⟨57, false, 2978851154656373, 49⟩]),
  ([1, 6, 0], [⟨57, true, 1861781971660233, 52⟩, ⟨59, true, 2902230870778155, 51⟩, ⟨61, true, 5347561585198649, 51⟩,
    ⟨63, true, 5101248628112335, 50⟩]),
  ([6, 0, 1], [⟨56, true, 35, 4⟩, ⟨58, false, 3420311882160287, 50⟩, ⟨60, true, 3208536951119189, 50⟩,
    ⟨62, false, 5453464174613415, 51⟩]),
  ([6, 1, 0], [⟨49, false, 5101248628112335, 50⟩, ⟨51, true, 5347561585198649, 51⟩,
    ⟨53, false, 2902230870778155, 51⟩, ⟨55, true, 1861781971660233, 52⟩]),
  ([0, 2, 5], [⟨56, true, 21, 1⟩, ⟨58, true, 5472499011456459, 49⟩]),
  ([0, 5, 2], [⟨51, false, 3208536951119189, 49⟩, ⟨53, false, 4837051451296925, 49⟩, ⟨55, false, 5585345914980699, 49⟩]),
  ([2, 0, 5], [⟨56, true, 21, 1⟩, ⟨58, false, 5472499011456459, 49⟩]),
  ([2, 5, 0], [⟨49, false, 3825936471084251, 48⟩, ⟨51, false, 4700005299491, 40⟩, ⟨53, false, 967410290259385, 51⟩,
    ⟨55, true, 5585345914980699, 52⟩]),
  ([5, 0, 2], [⟨57, false, 5585345914980699, 49⟩, ⟨59, true, 4837051451296925, 49⟩, ⟨61, false, 3208536951119189, 49⟩]),
  ([5, 2, 0], [⟨57, true, 5585345914980699, 52⟩, ⟨59, true, 967410290259385, 51⟩, ⟨61, false, 4700005299491, 40⟩,
    ⟨63, true, 3825936471084251, 48⟩]),
  ([0, 3, 4], [⟨53, true, 3224700967531283, 48⟩, ⟨55, true, 5585345914980699, 48⟩]),
  ([0, 4, 3], [⟨56, false, 105, 3⟩, ⟨58, false, 2280207921440191, 47⟩, ⟨60, false, 5347561585198649, 49⟩]),
  ([3, 0, 4], [⟨57, true, 5585345914980699, 48⟩, ⟨59, false, 3224700967531283, 48⟩]),
  ([3, 4, 0], [⟨57, true, 5585345914980699, 52⟩, ⟨59, true, 4837051451296925, 51⟩, ⟨61, false, 5347561585198649, 51⟩,
    ⟨63, false, 6376560785140419, 48⟩]),
  ([4, 0, 3], [⟨56, false, 105, 3⟩, ⟨58, true, 2280207921440191, 47⟩, ⟨60, false, 5347561585198649, 49⟩]),
  ([4, 3, 0], [⟨49, true, 6376560785140419, 48⟩, ⟨51, false, 5347561585198649, 51⟩,
    ⟨53, false, 4837051451296925, 51⟩, ⟨55, true, 5585345914980699, 52⟩]),
  ([1, 1, 5], [⟨54, false, 5472499011456459, 48⟩]),
  ([1, 5, 1], [⟨50, false, 4090098130960061, 48⟩, ⟨52, false, 3208536951119189, 48⟩, ⟨54, false, 3420311882160287, 49⟩]),
  ([5, 1, 1], [⟨50, false, 4090098130960061, 48⟩, ⟨52, true, 3208536951119189, 48⟩, ⟨54, false, 3420311882160287, 49⟩]),
  ([1, 2, 4], [⟨57, true, 5585345914980699, 48⟩, ⟨59, true, 4837051451296925, 47⟩]),
  ([1, 4, 2], [⟨57, false, 5585345914980699, 49⟩, ⟨59, false, 7255577176945387, 48⟩, ⟨61, false, 8021342377797973, 48⟩]),
  ([2, 1, 4], [⟨53, false, 4837051451296925, 47⟩, ⟨55, true, 5585345914980699, 48⟩]),
  ([2, 4, 1], [⟨56, true, 105, 4⟩, ⟨58, true, 3420311882160287, 50⟩, ⟨60, false, 8021342377797973, 49⟩,
    ⟨62, false, 5112622663700077, 47⟩]),
  ([4, 1, 2], [⟨51, false, 8021342377797973, 48⟩, ⟨53, true, 7255577176945387, 48⟩, ⟨55, false, 5585345914980699, 49⟩]),
  ([4, 2, 1], [⟨56, true, 105, 4⟩, ⟨58, false, 3420311882160287, 50⟩, ⟨60, false, 8021342377797973, 49⟩,
    ⟨62, true, 5112622663700077, 47⟩]),
  ([1, 3, 3], [⟨52, true, 5347561585198649, 47⟩, ⟨54, true, 2280207921440191, 46⟩]),
  ([3, 1, 3], [⟨52, false, 5347561585198649, 47⟩, ⟨54, true, 2280207921440191, 46⟩]),
  ([3, 3, 1], [⟨50, true, 6816830218266769, 47⟩, ⟨54, false, 3420311882160287, 48⟩]),
  ([2, 2, 3], [⟨56, false, 105, 2⟩, ⟨60, true, 8021342377797973, 47⟩]),
  ([2, 3, 2], [⟨51, true, 8021342377797973, 47⟩, ⟨53, true, 4837051451296925, 48⟩, ⟨55, false, 5585345914980699, 48⟩]),
  ([3, 2, 2], [⟨57, false, 5585345914980699, 48⟩, ⟨59, false, 4837051451296925, 48⟩, ⟨61, true, 8021342377797973, 47⟩])]

/-- The rows of `ls` for the monomials of degree 8 and the entries of `cm` in these rows:
so3/_spherical_harmonics_lut.npz. -/
def shippedRows8 : List (List Nat × List ShippedEntry) := [
  ([0, 0, 8], [⟨72, false, 1, 0⟩]),
  ([0, 8, 0], [⟨72, false, 35, 7⟩, ⟨74, false, 883120730562809, 51⟩, ⟨76, false, 1852449672433525, 52⟩,
    ⟨78, false, 8244862851329839, 54⟩, ⟨80, false, 352804481813259, 49⟩]),
  ([8, 0, 0], [⟨72, false, 35, 7⟩, ⟨74, true, 883120730562809, 51⟩, ⟨76, false, 1852449672433525, 52⟩,
    ⟨78, true, 8244862851329839, 54⟩, ⟨80, false, 352804481813259, 49⟩]),
  ([0, 1, 7], [⟨71, false, 6, 0⟩]),
  ([0, 7, 1], [⟨65, true, 352804481813259, 47⟩, ⟨67, true, 6679102279175545, 51⟩, ⟨69, true, 7174506731022427, 51⟩,
    ⟨71, true, 105, 5⟩]),
  ([1, 0, 7], [⟨73, false, 6, 0⟩]),
  ([1, 7, 0], [⟨64, true, 352804481813259, 46⟩, ⟨66, true, 6183647138497379, 51⟩, ⟨68, true, 1852449672433525, 50⟩,
    ⟨70, true, 883120730562809, 50⟩]),
  ([7, 0, 1], [⟨73, true, 105, 5⟩, ⟨75, false, 7174506731022427, 51⟩, ⟨77, true, 6679102279175545, 51⟩,
    ⟨79, false, 352804481813259, 47⟩]),
  ([7, 1, 0], [⟨64, false, 352804481813259, 46⟩, ⟨66, true, 6183647138497379, 51⟩, ⟨68, false, 1852449672433525, 50⟩,
    ⟨70, true, 883120730562809, 50⟩]),
  ([0, 2, 6], [⟨72, true, 14, 0⟩, ⟨74, true, 883120730562809, 46⟩]),
  ([0, 6, 2], [⟨72, true, 35, 2⟩, ⟨74, true, 1655851369805267, 47⟩, ⟨76, true, 5557349017300575, 49⟩,
    ⟨78, true, 7214254994913609, 50⟩]),
  ([2, 0, 6], [⟨72, true, 14, 0⟩, ⟨74, false, 883120730562809, 46⟩]),
  ([2, 6, 0], [⟨72, false, 35, 5⟩, ⟨74, false, 883120730562809, 50⟩, ⟨76, true, 1852449672433525, 50⟩,
    ⟨78, true, 7214254994913609, 50⟩, ⟨80, true, 2469631372692813, 47⟩]),
  ([6, 0, 2], [⟨72, true, 35, 2⟩, ⟨74, false, 1655851369805267, 47⟩, ⟨76, true, 5557349017300575, 49⟩,
    ⟨78, false, 7214254994913609, 50⟩]),
  ([6, 2, 0], [⟨72, false, 35, 5⟩, ⟨74, true, 883120730562809, 50⟩, ⟨76, true, 1852449672433525, 50⟩,
    ⟨78, false, 7214254994913609, 50⟩, ⟨80, true, 2469631372692813, 47⟩]),
  ([0, 3, 5], [⟨69, true, 4783004487348285, 48⟩, ⟨71, true, 63, 1⟩]),
  ([0, 5, 3], [⟨67, false, 6679102279175545, 49⟩, ⟨69, false, 1494688902296339, 46⟩, ⟨71, false, 105, 2⟩]),
  ([3, 0, 5], [⟨73, true, 63, 1⟩, ⟨75, false, 4783004487348285, 48⟩]),
  ([3, 5, 0], [⟨64, false, 2469631372692813, 46⟩, ⟨66, false, 7214254994913609, 50⟩,
    ⟨68, true, 1852449672433525, 50⟩, ⟨70, true, 2649362191688427, 50⟩]),
  ([5, 0, 3], [⟨73, false, 105, 2⟩, ⟨75, true, 1494688902296339, 46⟩, ⟨77, false, 6679102279175545, 49⟩]),
  ([5, 3, 0], [⟨64, true, 2469631372692813, 46⟩, ⟨66, false, 7214254994913609, 50⟩,
    ⟨68, false, 1852449672433525, 50⟩, ⟨70, true, 2649362191688427, 50⟩]),
  ([0, 4, 4], [⟨72, false, 105, 2⟩, ⟨74, false, 4415603652814045, 47⟩, ⟨76, false, 4631124181083813, 48⟩]),
  ([4, 0, 4], [⟨72, false, 105, 2⟩, ⟨74, true, 4415603652814045, 47⟩, ⟨76, false, 4631124181083813, 48⟩]),
  ([4, 4, 0], [⟨72, false, 105, 6⟩, ⟨76, true, 4631124181083813, 50⟩, ⟨80, false, 6174078431732033, 47⟩]),
  ([1, 1, 6], [⟨70, false, 883120730562809, 45⟩]),
  ([1, 6, 1], [⟨73, true, 105, 5⟩, ⟨75, true, 1345220012066705, 47⟩, ⟨77, true, 1043609731121179, 46⟩,
    ⟨79, true, 2469631372692813, 47⟩]),
  ([6, 1, 1], [⟨65, false, 2469631372692813, 47⟩, ⟨67, true, 1043609731121179, 46⟩,
    ⟨69, false, 1345220012066705, 47⟩, ⟨71, true, 105, 5⟩]),
  ([1, 2, 5], [⟨73, true, 63, 1⟩, ⟨75, true, 7174506731022427, 47⟩]),
  ([1, 5, 2], [⟨66, false, 5410691246185207, 47⟩, ⟨68, false, 5557349017300575, 47⟩, ⟨70, false, 1655851369805267, 46⟩]),
  ([2, 1, 5], [⟨69, false, 7174506731022427, 47⟩, ⟨71, true, 63, 1⟩]),
  ([2, 5, 1], [⟨65, false, 926111764759805, 44⟩, ⟨67, false, 939248758009061, 45⟩, ⟨69, false, 7174506731022427, 51⟩,
    ⟨71, true, 315, 5⟩]),
  ([5, 1, 2], [⟨66, false, 5410691246185207, 47⟩, ⟨68, true, 5557349017300575, 47⟩, ⟨70, false, 1655851369805267, 46⟩]),
  ([5, 2, 1], [⟨73, true, 315, 5⟩, ⟨75, true, 7174506731022427, 51⟩, ⟨77, false, 939248758009061, 45⟩,
    ⟨79, true, 926111764759805, 44⟩]),
  ([1, 3, 4], [⟨68, true, 4631124181083813, 46⟩, ⟨70, true, 4415603652814045, 46⟩]),
  ([1, 4, 3], [⟨73, false, 105, 2⟩, ⟨75, false, 4484066706889017, 46⟩, ⟨77, false, 1043609731121179, 44⟩]),
  ([3, 1, 4], [⟨68, false, 4631124181083813, 46⟩, ⟨70, true, 4415603652814045, 46⟩]),
  ([3, 4, 1], [⟨73, true, 315, 5⟩, ⟨75, true, 4484066706889017, 48⟩, ⟨77, false, 1043609731121179, 46⟩,
    ⟨79, false, 6174078431732033, 46⟩]),
  ([4, 1, 3], [⟨67, false, 1043609731121179, 44⟩, ⟨69, true, 4484066706889017, 46⟩, ⟨71, false, 105, 2⟩]),
  ([4, 3, 1], [⟨65, true, 6174078431732033, 46⟩, ⟨67, false, 1043609731121179, 46⟩,
    ⟨69, false, 4484066706889017, 48⟩, ⟨71, true, 315, 5⟩]),
  ([2, 2, 4], [⟨72, false, 105, 1⟩, ⟨76, true, 6946686271625719, 46⟩]),
  ([2, 4, 2], [⟨72, true, 105, 2⟩, ⟨74, true, 1655851369805267, 47⟩, ⟨76, false, 6946686271625719, 47⟩,
    ⟨78, false, 1690841014432877, 44⟩]),
  ([4, 2, 2], [⟨72, true, 105, 2⟩, ⟨74, false, 1655851369805267, 47⟩, ⟨76, false, 6946686271625719, 47⟩,
    ⟨78, true, 1690841014432877, 44⟩]),
  ([2, 3, 3], [⟨67, true, 1043609731121179, 43⟩, ⟨69, true, 1494688902296339, 45⟩, ⟨71, false, 105, 1⟩]),
  ([3, 2, 3], [⟨73, false, 105, 1⟩, ⟨75, false, 1494688902296339, 45⟩, ⟨77, true, 1043609731121179, 43⟩]),
  ([3, 3, 2], [⟨66, true, 2254454685910503, 44⟩, ⟨70, false, 1655851369805267, 45⟩])]

/-- The rows of `ls` for the monomials of degree 9 and the entries of `cm` in these rows:
so3/_spherical_harmonics_lut.npz. -/
def shippedRows9 : List (List Nat × List ShippedEntry) := [
  ([0, 0, 9], [⟨90, false, 1, 0⟩]),
  ([0, 9, 0], [⟨81, false, 685728653912979, 50⟩, ⟨83, false, 3991527064370583, 53⟩,
    ⟨85, false, 3570130339985121, 53⟩, ⟨87, false, 6764189814899317, 54⟩, ⟨89, false, 1652167602461767, 52⟩]),
  ([9, 0, 0], [⟨91, false, 1652167602461767, 52⟩, ⟨93, true, 6764189814899317, 54⟩,
    ⟨95, false, 3570130339985121, 53⟩, ⟨97, true, 3991527064370583, 53⟩, ⟨99, false, 685728653912979, 50⟩]),
  ([0, 1, 8], [⟨89, false, 1888191545670591, 48⟩]),
  ([0, 8, 1], [⟨90, false, 315, 7⟩, ⟨92, false, 7749352960456363, 51⟩, ⟨94, false, 7467463362455149, 51⟩,
    ⟨96, false, 3456763837638049, 50⟩, ⟨98, false, 363662535926843, 47⟩]),
  ([1, 0, 8], [⟨91, false, 1888191545670591, 48⟩]),
  ([1, 8, 0], [⟨91, false, 1652167602461767, 52⟩, ⟨93, false, 634142795146811, 49⟩,
    ⟨95, false, 4462662924981401, 51⟩, ⟨97, false, 873146545331065, 48⟩, ⟨99, false, 6171557885216811, 50⟩]),
  ([8, 0, 1], [⟨90, false, 315, 7⟩, ⟨92, true, 7749352960456363, 51⟩, ⟨94, false, 7467463362455149, 51⟩,
    ⟨96, true, 3456763837638049, 50⟩, ⟨98, false, 363662535926843, 47⟩]),
  ([8, 1, 0], [⟨81, false, 6171557885216811, 50⟩, ⟨83, true, 873146545331065, 48⟩, ⟨85, false, 4462662924981401, 51⟩,
    ⟨87, true, 634142795146811, 49⟩, ⟨89, false, 1652167602461767, 52⟩]),
  ([0, 2, 7], [⟨90, true, 18, 0⟩, ⟨92, true, 8856403383378701, 49⟩]),
  ([0, 7, 2], [⟨83, true, 3991527064370583, 49⟩, ⟨85, true, 3123864047486981, 48⟩, ⟨87, true, 1902428385440433, 47⟩,
    ⟨89, true, 8260838012308835, 49⟩]),
  ([2, 0, 7], [⟨90, true, 18, 0⟩, ⟨92, false, 8856403383378701, 49⟩]),
  ([2, 7, 0], [⟨81, true, 6171557885216811, 48⟩, ⟨83, true, 4989408830463229, 49⟩, ⟨85, true, 3570130339985121, 50⟩,
    ⟨89, false, 1652167602461767, 50⟩]),
  ([7, 0, 2], [⟨91, true, 8260838012308835, 49⟩, ⟨93, false, 1902428385440433, 47⟩, ⟨95, true, 3123864047486981, 48⟩,
    ⟨97, false, 3991527064370583, 49⟩]),
  ([7, 2, 0], [⟨91, false, 1652167602461767, 50⟩, ⟨95, true, 3570130339985121, 50⟩,
    ⟨97, false, 4989408830463229, 49⟩, ⟨99, true, 6171557885216811, 48⟩]),
  ([0, 3, 6], [⟨87, true, 6764189814899317, 48⟩, ⟨89, true, 1652167602461767, 45⟩]),
  ([0, 6, 3], [⟨90, true, 105, 2⟩, ⟨92, true, 4843345600285227, 47⟩, ⟨94, true, 7467463362455149, 48⟩,
    ⟨96, true, 8065782287822115, 49⟩]),
  ([3, 0, 6], [⟨91, true, 1652167602461767, 45⟩, ⟨93, false, 6764189814899317, 48⟩]),
  ([3, 6, 0], [⟨91, false, 1652167602461767, 50⟩, ⟨93, false, 6764189814899317, 51⟩, ⟨97, true, 873146545331065, 46⟩,
    ⟨99, true, 900018858260785, 44⟩]),
  ([6, 0, 3], [⟨90, true, 105, 2⟩, ⟨92, false, 4843345600285227, 47⟩, ⟨94, true, 7467463362455149, 48⟩,
    ⟨96, false, 8065782287822115, 49⟩]),
  ([6, 3, 0], [⟨81, true, 900018858260785, 44⟩, ⟨83, false, 873146545331065, 46⟩, ⟨87, true, 6764189814899317, 51⟩,
    ⟨89, false, 1652167602461767, 50⟩]),
  ([0, 4, 5], [⟨90, false, 189, 2⟩, ⟨92, false, 7749352960456363, 47⟩, ⟨94, false, 7467463362455149, 48⟩]),
  ([0, 5, 4], [⟨85, false, 3123864047486981, 47⟩, ⟨87, false, 3170713975734055, 46⟩, ⟨89, false, 8260838012308835, 47⟩]),
  ([4, 0, 5], [⟨90, false, 189, 2⟩, ⟨92, true, 7749352960456363, 47⟩, ⟨94, false, 7467463362455149, 48⟩]),
  ([4, 5, 0], [⟨81, false, 2700056574782355, 45⟩, ⟨83, false, 873146545331065, 47⟩, ⟨85, true, 3123864047486981, 49⟩,
    ⟨87, true, 634142795146811, 48⟩, ⟨89, false, 4956502807385301, 51⟩]),
  ([5, 0, 4], [⟨91, false, 8260838012308835, 47⟩, ⟨93, true, 3170713975734055, 46⟩, ⟨95, false, 3123864047486981, 47⟩]),
  ([5, 4, 0], [⟨91, false, 4956502807385301, 51⟩, ⟨93, false, 634142795146811, 48⟩, ⟨95, true, 3123864047486981, 49⟩,
    ⟨97, true, 873146545331065, 47⟩, ⟨99, false, 2700056574782355, 45⟩]),
  ([1, 1, 7], [⟨88, false, 8856403383378701, 48⟩]),
  ([1, 7, 1], [⟨82, true, 363662535926843, 44⟩, ⟨84, true, 2592572878228537, 47⟩, ⟨86, true, 7467463362455149, 49⟩,
    ⟨88, true, 7749352960456363, 50⟩]),
  ([7, 1, 1], [⟨82, false, 363662535926843, 44⟩, ⟨84, true, 2592572878228537, 47⟩, ⟨86, false, 7467463362455149, 49⟩,
    ⟨88, true, 7749352960456363, 50⟩]),
  ([1, 2, 6], [⟨91, true, 1652167602461767, 45⟩, ⟨93, true, 634142795146811, 43⟩]),
  ([1, 6, 2], [⟨91, true, 8260838012308835, 49⟩, ⟨93, true, 5707285156321299, 47⟩, ⟨95, true, 1952415029679363, 45⟩,
    ⟨97, true, 873146545331065, 44⟩]),
  ([2, 1, 6], [⟨87, false, 634142795146811, 43⟩, ⟨89, true, 1652167602461767, 45⟩]),
  ([2, 6, 1], [⟨90, false, 315, 5⟩, ⟨92, false, 7749352960456363, 50⟩, ⟨94, true, 7467463362455149, 49⟩,
    ⟨96, true, 3024668357933293, 46⟩, ⟨98, true, 2545637751487901, 45⟩]),
  ([6, 1, 2], [⟨83, false, 873146545331065, 44⟩, ⟨85, true, 1952415029679363, 45⟩, ⟨87, false, 5707285156321299, 47⟩,
    ⟨89, true, 8260838012308835, 49⟩]),
  ([6, 2, 1], [⟨90, false, 315, 5⟩, ⟨92, true, 7749352960456363, 50⟩, ⟨94, true, 7467463362455149, 49⟩,
    ⟨96, false, 3024668357933293, 46⟩, ⟨98, true, 2545637751487901, 45⟩]),
  ([1, 3, 5], [⟨86, true, 7467463362455149, 46⟩, ⟨88, true, 7749352960456363, 46⟩]),
  ([1, 5, 3], [⟨84, false, 3024668357933293, 45⟩, ⟨86, false, 7467463362455149, 46⟩, ⟨88, false, 4843345600285227, 46⟩]),
  ([3, 1, 5], [⟨86, false, 7467463362455149, 46⟩, ⟨88, true, 7749352960456363, 46⟩]),
  ([3, 5, 1], [⟨82, false, 2545637751487901, 44⟩, ⟨84, false, 3024668357933293, 46⟩,
    ⟨86, true, 7467463362455149, 49⟩, ⟨88, true, 22703182501337, 40⟩]),
  ([5, 1, 3], [⟨84, false, 3024668357933293, 45⟩, ⟨86, true, 7467463362455149, 46⟩, ⟨88, false, 4843345600285227, 46⟩]),
  ([5, 3, 1], [⟨82, true, 2545637751487901, 44⟩, ⟨84, false, 3024668357933293, 46⟩,
    ⟨86, false, 7467463362455149, 49⟩, ⟨88, true, 22703182501337, 40⟩]),
  ([1, 4, 4], [⟨91, false, 8260838012308835, 47⟩, ⟨93, false, 2378035481800541, 44⟩, ⟨95, false, 1952415029679363, 44⟩]),
  ([4, 1, 4], [⟨85, false, 1952415029679363, 44⟩, ⟨87, true, 2378035481800541, 44⟩, ⟨89, false, 8260838012308835, 47⟩]),
  ([4, 4, 1], [⟨90, false, 945, 6⟩, ⟨94, true, 1166791150383617, 45⟩, ⟨98, false, 795511797339969, 42⟩]),
  ([2, 2, 5], [⟨90, false, 189, 1⟩, ⟨94, true, 2800298760920681, 44⟩]),
  ([2, 5, 2], [⟨83, false, 2619439635993195, 44⟩, ⟨85, false, 7028694106845707, 46⟩,
    ⟨87, false, 1902428385440433, 47⟩, ⟨89, true, 3097814254615813, 46⟩]),
  ([5, 2, 2], [⟨91, true, 3097814254615813, 46⟩, ⟨93, true, 1902428385440433, 47⟩, ⟨95, false, 7028694106845707, 46⟩,
    ⟨97, true, 2619439635993195, 44⟩]),
  ([2, 3, 4], [⟨85, true, 1952415029679363, 43⟩, ⟨87, true, 3170713975734055, 45⟩, ⟨89, false, 8260838012308835, 46⟩]),
  ([2, 4, 3], [⟨90, true, 315, 2⟩, ⟨92, true, 4843345600285227, 47⟩, ⟨94, false, 1166791150383617, 43⟩,
    ⟨96, false, 7561670894833233, 45⟩]),
  ([3, 2, 4], [⟨91, false, 8260838012308835, 46⟩, ⟨93, false, 3170713975734055, 45⟩, ⟨95, true, 1952415029679363, 43⟩]),
  ([3, 4, 2], [⟨91, true, 3097814254615813, 46⟩, ⟨93, true, 2378035481800541, 45⟩, ⟨95, false, 1952415029679363, 45⟩,
    ⟨97, false, 4365732726655325, 44⟩]),
  ([4, 2, 3], [⟨90, true, 315, 2⟩, ⟨92, false, 4843345600285227, 47⟩, ⟨94, false, 1166791150383617, 43⟩,
    ⟨96, true, 7561670894833233, 45⟩]),
  ([4, 3, 2], [⟨83, true, 4365732726655325, 44⟩, ⟨85, false, 1952415029679363, 45⟩,
    ⟨87, false, 2378035481800541, 45⟩, ⟨89, true, 3097814254615813, 46⟩]),
  ([3, 3, 3], [⟨84, true, 2520556964944411, 43⟩, ⟨88, false, 4843345600285227, 45⟩])]

/-- The rows of `ls` for the monomials of degree 10 and the entries of `cm` in these rows:
so3/_spherical_harmonics_lut.npz. -/
def shippedRows10 : List (List Nat × List ShippedEntry) := [
  ([0, 0, 10], [⟨110, false, 1, 0⟩]),
  ([0, 10, 0], [⟨110, true, 63, 8⟩, ⟨112, true, 1581830049153693, 52⟩, ⟨114, true, 6518136401478129, 54⟩,
    ⟨116, true, 3456763837638049, 53⟩, ⟨118, true, 3879067049886325, 53⟩, ⟨120, true, 2673462466412995, 52⟩]),
  ([10, 0, 0], [⟨110, true, 63, 8⟩, ⟨112, false, 1581830049153693, 52⟩, ⟨114, true, 6518136401478129, 54⟩,
    ⟨116, false, 3456763837638049, 53⟩, ⟨118, true, 3879067049886325, 53⟩, ⟨120, false, 2673462466412995, 52⟩]),
  ([0, 1, 9], [⟨109, false, 1043737148218427, 47⟩]),
  ([0, 9, 1], [⟨101, false, 5978043810193705, 51⟩, ⟨103, false, 7126301212698567, 51⟩,
    ⟨105, false, 1932389730780431, 49⟩, ⟨107, false, 8065782287822115, 51⟩, ⟨109, false, 8219430042220113, 51⟩]),
  ([1, 0, 9], [⟨111, false, 1043737148218427, 47⟩]),
  ([1, 9, 0], [⟨100, false, 6683656166032487, 50⟩, ⟨102, false, 3879067049886325, 50⟩,
    ⟨104, false, 2592572878228537, 50⟩, ⟨106, false, 6518136401478129, 52⟩, ⟨108, false, 1581830049153693, 51⟩]),
  ([9, 0, 1], [⟨111, false, 8219430042220113, 51⟩, ⟨113, true, 8065782287822115, 51⟩,
    ⟨115, false, 1932389730780431, 49⟩, ⟨117, true, 7126301212698567, 51⟩, ⟨119, false, 5978043810193705, 51⟩]),
  ([9, 1, 0], [⟨100, false, 6683656166032487, 50⟩, ⟨102, true, 3879067049886325, 50⟩,
    ⟨104, false, 2592572878228537, 50⟩, ⟨106, true, 6518136401478129, 52⟩, ⟨108, false, 1581830049153693, 51⟩]),
  ([0, 2, 8], [⟨110, true, 45, 1⟩, ⟨112, true, 2711708655692045, 47⟩]),
  ([0, 8, 2], [⟨110, false, 1575, 7⟩, ⟨112, false, 4745490147461079, 48⟩, ⟨114, false, 2138763506735011, 47⟩,
    ⟨116, false, 3456763837638049, 48⟩, ⟨118, false, 8727900862244231, 50⟩]),
  ([2, 0, 8], [⟨110, true, 45, 1⟩, ⟨112, false, 2711708655692045, 47⟩]),
  ([2, 8, 0], [⟨110, true, 315, 8⟩, ⟨112, true, 4745490147461079, 52⟩, ⟨114, false, 4888602301108597, 52⟩,
    ⟨116, false, 2808620618080915, 49⟩, ⟨118, false, 3272962823341587, 48⟩, ⟨120, false, 1879778296696637, 46⟩]),
  ([8, 0, 2], [⟨110, false, 1575, 7⟩, ⟨112, true, 4745490147461079, 48⟩, ⟨114, false, 2138763506735011, 47⟩,
    ⟨116, true, 3456763837638049, 48⟩, ⟨118, false, 8727900862244231, 50⟩]),
  ([8, 2, 0], [⟨110, true, 315, 8⟩, ⟨112, false, 4745490147461079, 52⟩, ⟨114, false, 4888602301108597, 52⟩,
    ⟨116, true, 2808620618080915, 49⟩, ⟨118, false, 3272962823341587, 48⟩, ⟨120, true, 1879778296696637, 46⟩]),
  ([0, 3, 7], [⟨107, true, 2304509225092033, 46⟩, ⟨109, true, 2348408583491461, 45⟩]),
  ([0, 7, 3], [⟨103, true, 2375433737566189, 47⟩, ⟨105, true, 2254454685910503, 46⟩,
    ⟨107, true, 3024668357933293, 46⟩, ⟨109, true, 6849525035183427, 47⟩]),
  ([3, 0, 7], [⟨111, true, 2348408583491461, 45⟩, ⟨113, false, 2304509225092033, 46⟩]),
  ([3, 7, 0], [⟨100, true, 5012742124524365, 46⟩, ⟨102, true, 363662535926843, 44⟩,
    ⟨104, true, 3456763837638049, 50⟩, ⟨106, false, 6518136401478129, 51⟩, ⟨108, false, 1581830049153693, 49⟩]),
  ([7, 0, 3], [⟨111, true, 6849525035183427, 47⟩, ⟨113, false, 3024668357933293, 46⟩,
    ⟨115, true, 2254454685910503, 46⟩, ⟨117, false, 2375433737566189, 47⟩]),
  ([7, 3, 0], [⟨100, true, 5012742124524365, 46⟩, ⟨102, false, 363662535926843, 44⟩,
    ⟨104, true, 3456763837638049, 50⟩, ⟨106, true, 6518136401478129, 51⟩, ⟨108, false, 1581830049153693, 49⟩]),
  ([0, 4, 6], [⟨110, false, 315, 2⟩, ⟨112, false, 1581830049153693, 44⟩, ⟨114, false, 5703369351293363, 47⟩]),
  ([0, 6, 4], [⟨110, true, 525, 3⟩, ⟨112, true, 5931862684326349, 46⟩, ⟨114, true, 2138763506735011, 45⟩,
    ⟨116, true, 8065782287822115, 48⟩]),
  ([4, 0, 6], [⟨110, false, 315, 2⟩, ⟨112, true, 1581830049153693, 44⟩, ⟨114, false, 5703369351293363, 47⟩]),
  ([4, 6, 0], [⟨110, true, 315, 7⟩, ⟨112, true, 1581830049153693, 51⟩, ⟨114, false, 5703369351293363, 50⟩,
    ⟨116, false, 3024668357933293, 49⟩, ⟨118, true, 2545637751487901, 47⟩, ⟨120, true, 8772298717917639, 46⟩]),
  ([6, 0, 4], [⟨110, true, 525, 3⟩, ⟨112, false, 5931862684326349, 46⟩, ⟨114, true, 2138763506735011, 45⟩,
    ⟨116, false, 8065782287822115, 48⟩]),
  ([6, 4, 0], [⟨110, true, 315, 7⟩, ⟨112, false, 1581830049153693, 51⟩, ⟨114, false, 5703369351293363, 50⟩,
    ⟨116, true, 3024668357933293, 49⟩, ⟨118, true, 2545637751487901, 47⟩, ⟨120, false, 8772298717917639, 46⟩]),
  ([0, 5, 5], [⟨105, false, 5410691246185207, 47⟩, ⟨107, false, 3024668357933293, 45⟩,
    ⟨109, false, 8219430042220113, 46⟩]),
  ([5, 0, 5], [⟨111, false, 8219430042220113, 46⟩, ⟨113, true, 3024668357933293, 45⟩,
    ⟨115, false, 5410691246185207, 47⟩]),
  ([5, 5, 0], [⟨100, false, 657922403843823, 42⟩, ⟨104, true, 3024668357933293, 48⟩,
    ⟨108, false, 4745490147461079, 50⟩]),
  ([1, 1, 8], [⟨108, false, 2711708655692045, 46⟩]),
  ([1, 8, 1], [⟨111, false, 8219430042220113, 51⟩, ⟨113, false, 3024668357933293, 48⟩,
    ⟨115, false, 2415487163475539, 47⟩, ⟨117, false, 3117756780555623, 47⟩, ⟨119, false, 3362649643233959, 47⟩]),
  ([8, 1, 1], [⟨101, false, 3362649643233959, 47⟩, ⟨103, true, 3117756780555623, 47⟩,
    ⟨105, false, 2415487163475539, 47⟩, ⟨107, true, 3024668357933293, 48⟩, ⟨109, false, 8219430042220113, 51⟩]),
  ([1, 2, 7], [⟨111, true, 2348408583491461, 45⟩, ⟨113, true, 3456763837638049, 45⟩]),
  ([1, 7, 2], [⟨102, true, 8727900862244231, 47⟩, ⟨104, true, 2592572878228537, 45⟩,
    ⟨106, true, 2138763506735011, 45⟩, ⟨108, true, 4745490147461079, 47⟩]),
  ([2, 1, 7], [⟨107, false, 3456763837638049, 45⟩, ⟨109, true, 2348408583491461, 45⟩]),
  ([2, 7, 1], [⟨101, true, 3362649643233959, 45⟩, ⟨103, true, 8907876515873209, 47⟩,
    ⟨105, true, 1932389730780431, 46⟩, ⟨109, false, 8219430042220113, 49⟩]),
  ([7, 1, 2], [⟨102, false, 8727900862244231, 47⟩, ⟨104, true, 2592572878228537, 45⟩,
    ⟨106, false, 2138763506735011, 45⟩, ⟨108, true, 4745490147461079, 47⟩]),
  ([7, 2, 1], [⟨111, false, 8219430042220113, 49⟩, ⟨115, true, 1932389730780431, 46⟩,
    ⟨117, false, 8907876515873209, 47⟩, ⟨119, true, 3362649643233959, 45⟩]),
  ([1, 3, 6], [⟨106, true, 5703369351293363, 45⟩, ⟨108, true, 1581830049153693, 43⟩]),
  ([1, 6, 3], [⟨111, true, 6849525035183427, 47⟩, ⟨113, true, 1134250634224985, 43⟩,
    ⟨115, true, 5636136714776257, 45⟩, ⟨117, true, 8314018081481661, 46⟩]),
  ([3, 1, 6], [⟨106, false, 5703369351293363, 45⟩, ⟨108, true, 1581830049153693, 43⟩]),
  ([3, 6, 1], [⟨111, false, 8219430042220113, 49⟩, ⟨113, false, 8065782287822115, 48⟩,
    ⟨117, true, 3117756780555623, 45⟩, ⟨119, true, 3923091250439619, 44⟩]),
  ([6, 1, 3], [⟨103, false, 8314018081481661, 46⟩, ⟨105, true, 5636136714776257, 45⟩,
    ⟨107, false, 1134250634224985, 43⟩, ⟨109, true, 6849525035183427, 47⟩]),
  ([6, 3, 1], [⟨101, true, 3923091250439619, 44⟩, ⟨103, false, 3117756780555623, 45⟩,
    ⟨107, true, 8065782287822115, 48⟩, ⟨109, false, 8219430042220113, 49⟩]),
  ([1, 4, 5], [⟨111, false, 8219430042220113, 46⟩, ⟨113, false, 1134250634224985, 42⟩,
    ⟨115, false, 1690841014432877, 43⟩]),
  ([1, 5, 4], [⟨104, false, 3024668357933293, 44⟩, ⟨106, false, 2138763506735011, 43⟩,
    ⟨108, false, 5931862684326349, 45⟩]),
  ([4, 1, 5], [⟨105, false, 1690841014432877, 43⟩, ⟨107, true, 1134250634224985, 42⟩,
    ⟨109, false, 8219430042220113, 46⟩]),
  ([4, 5, 1], [⟨101, false, 1471159218914857, 42⟩, ⟨103, false, 3117756780555623, 46⟩,
    ⟨105, true, 1690841014432877, 45⟩, ⟨107, true, 3024668357933293, 47⟩, ⟨109, false, 1541143132916271, 46⟩]),
  ([5, 1, 4], [⟨104, false, 3024668357933293, 44⟩, ⟨106, true, 2138763506735011, 43⟩,
    ⟨108, false, 5931862684326349, 45⟩]),
  ([5, 4, 1], [⟨111, false, 1541143132916271, 46⟩, ⟨113, false, 3024668357933293, 47⟩,
    ⟨115, true, 1690841014432877, 45⟩, ⟨117, true, 3117756780555623, 46⟩, ⟨119, false, 1471159218914857, 42⟩]),
  ([2, 2, 6], [⟨110, false, 315, 1⟩, ⟨114, true, 2138763506735011, 43⟩]),
  ([2, 6, 2], [⟨110, false, 1575, 5⟩, ⟨112, false, 4745490147461079, 47⟩, ⟨114, true, 2138763506735011, 45⟩,
    ⟨116, true, 3024668357933293, 44⟩, ⟨118, true, 3818456627231851, 44⟩]),
  ([6, 2, 2], [⟨110, false, 1575, 5⟩, ⟨112, true, 4745490147461079, 47⟩, ⟨114, true, 2138763506735011, 45⟩,
    ⟨116, false, 3024668357933293, 44⟩, ⟨118, true, 3818456627231851, 44⟩]),
  ([2, 3, 5], [⟨105, true, 1690841014432877, 42⟩, ⟨107, true, 3024668357933293, 44⟩,
    ⟨109, false, 8219430042220113, 45⟩]),
  ([2, 5, 3], [⟨103, false, 3117756780555623, 43⟩, ⟨105, false, 5072523043298631, 44⟩,
    ⟨107, false, 3024668357933293, 46⟩, ⟨109, true, 2568571888193785, 44⟩]),
  ([3, 2, 5], [⟨111, false, 8219430042220113, 45⟩, ⟨113, false, 3024668357933293, 44⟩,
    ⟨115, true, 1690841014432877, 42⟩]),
  ([3, 5, 2], [⟨102, false, 3818456627231851, 43⟩, ⟨104, false, 3024668357933293, 44⟩,
    ⟨106, true, 2138763506735011, 45⟩, ⟨108, true, 7118235221191619, 46⟩]),
  ([5, 2, 3], [⟨111, true, 2568571888193785, 44⟩, ⟨113, true, 3024668357933293, 46⟩,
    ⟨115, false, 5072523043298631, 44⟩, ⟨117, true, 3117756780555623, 43⟩]),
  ([5, 3, 2], [⟨102, true, 3818456627231851, 43⟩, ⟨104, false, 3024668357933293, 44⟩,
    ⟨106, false, 2138763506735011, 45⟩, ⟨108, true, 7118235221191619, 46⟩]),
  ([2, 4, 4], [⟨110, true, 1575, 3⟩, ⟨112, true, 5931862684326349, 46⟩, ⟨114, false, 668363595854691, 41⟩,
    ⟨116, false, 7561670894833233, 44⟩]),
  ([4, 2, 4], [⟨110, true, 1575, 3⟩, ⟨112, false, 5931862684326349, 46⟩, ⟨114, false, 668363595854691, 41⟩,
    ⟨116, true, 7561670894833233, 44⟩]),
  ([4, 4, 2], [⟨110, false, 4725, 6⟩, ⟨114, true, 668363595854691, 42⟩, ⟨118, false, 2386535392019907, 42⟩]),
  ([3, 3, 4], [⟨104, true, 2520556964944411, 42⟩, ⟨108, false, 5931862684326349, 44⟩]),
  ([3, 4, 3], [⟨111, true, 2568571888193785, 44⟩, ⟨113, true, 7561670894833233, 45⟩,
    ⟨115, false, 5636136714776257, 45⟩, ⟨117, false, 2598130650463019, 42⟩]),
  ([4, 3, 3], [⟨103, true, 2598130650463019, 42⟩, ⟨105, false, 5636136714776257, 45⟩,
    ⟨107, false, 7561670894833233, 45⟩, ⟨109, true, 2568571888193785, 44⟩])]

/-- The rows of `ls` for the monomials of degree 11 and the entries of `cm` in these rows:
so3/_spherical_harmonics_lut.npz. -/
def shippedRows11 : List (List Nat × List ShippedEntry) := [
  ([0, 0, 11], [⟨132, false, 1, 0⟩]),
  ([0, 11, 0], [⟨121, true, 652998835673689, 50⟩, ⟨123, true, 7561693756993365, 54⟩,
    ⟨125, true, 839842652046179, 51⟩, ⟨127, true, 1577789608202071, 52⟩, ⟨129, true, 6097158303647689, 54⟩,
    ⟨131, true, 6002622991946127, 54⟩]),
  ([11, 0, 0], [⟨133, true, 6002622991946127, 54⟩, ⟨135, false, 6097158303647689, 54⟩,
    ⟨137, true, 1577789608202071, 52⟩, ⟨139, false, 839842652046179, 51⟩, ⟨141, true, 7561693756993365, 54⟩,
    ⟨143, false, 652998835673689, 50⟩]),
  ([0, 1, 10], [⟨131, false, 1143356760370691, 47⟩]),
  ([0, 10, 1], [⟨132, true, 693, 8⟩, ⟨134, true, 2138763506735011, 49⟩, ⟨136, true, 1043609731121179, 48⟩,
    ⟨138, true, 248982717808331, 46⟩, ⟨140, true, 3660789248744487, 50⟩, ⟨142, true, 3062836029990221, 50⟩]),
  ([1, 0, 10], [⟨133, false, 1143356760370691, 47⟩]),
  ([1, 10, 0], [⟨133, true, 6002622991946127, 54⟩, ⟨135, true, 4572868727735767, 52⟩,
    ⟨137, true, 3944474020505177, 51⟩, ⟨139, true, 5878898564323253, 51⟩, ⟨141, true, 132920398072149, 45⟩,
    ⟨143, true, 7182987192410579, 50⟩]),
  ([10, 0, 1], [⟨132, true, 693, 8⟩, ⟨134, false, 2138763506735011, 49⟩, ⟨136, true, 1043609731121179, 48⟩,
    ⟨138, false, 248982717808331, 46⟩, ⟨140, true, 3660789248744487, 50⟩, ⟨142, false, 3062836029990221, 50⟩]),
  ([10, 1, 0], [⟨121, false, 7182987192410579, 50⟩, ⟨123, true, 132920398072149, 45⟩,
    ⟨125, false, 5878898564323253, 51⟩, ⟨127, true, 3944474020505177, 51⟩, ⟨129, false, 4572868727735767, 52⟩,
    ⟨131, true, 6002622991946127, 54⟩]),
  ([0, 2, 9], [⟨132, true, 55, 1⟩, ⟨134, true, 6518136401478129, 48⟩]),
  ([0, 9, 2], [⟨123, false, 4726058598120853, 49⟩, ⟨125, false, 7558583868415611, 49⟩,
    ⟨127, false, 4733368824606213, 48⟩, ⟨129, false, 333438344730733, 44⟩, ⟨131, false, 2813729527474747, 47⟩]),
  ([2, 0, 9], [⟨132, true, 55, 1⟩, ⟨134, false, 6518136401478129, 48⟩]),
  ([2, 9, 0], [⟨121, false, 1122341748814153, 45⟩, ⟨123, false, 8270602546711493, 49⟩,
    ⟨125, false, 1994626298609675, 48⟩, ⟨127, false, 345141476794203, 47⟩, ⟨129, true, 6097158303647689, 54⟩,
    ⟨131, true, 7503278739932659, 52⟩]),
  ([9, 0, 2], [⟨133, false, 2813729527474747, 47⟩, ⟨135, true, 333438344730733, 44⟩,
    ⟨137, false, 4733368824606213, 48⟩, ⟨139, true, 7558583868415611, 49⟩, ⟨141, false, 4726058598120853, 49⟩]),
  ([9, 2, 0], [⟨133, true, 7503278739932659, 52⟩, ⟨135, false, 6097158303647689, 54⟩,
    ⟨137, false, 345141476794203, 47⟩, ⟨139, true, 1994626298609675, 48⟩, ⟨141, false, 8270602546711493, 49⟩,
    ⟨143, true, 1122341748814153, 45⟩]),
  ([0, 3, 8], [⟨129, true, 6097158303647689, 47⟩, ⟨131, true, 401961361067821, 42⟩]),
  ([0, 8, 3], [⟨132, false, 5775, 7⟩, ⟨134, false, 2138763506735011, 45⟩, ⟨136, false, 7305268117848253, 47⟩,
    ⟨138, false, 2655815656622197, 46⟩, ⟨140, false, 5491183873116731, 48⟩]),
  ([3, 0, 8], [⟨133, true, 401961361067821, 42⟩, ⟨135, false, 6097158303647689, 47⟩]),
  ([3, 8, 0], [⟨133, true, 7503278739932659, 52⟩, ⟨135, true, 8383592667515573, 51⟩,
    ⟨137, true, 3944474020505177, 51⟩, ⟨139, false, 8818347846484879, 50⟩, ⟨141, false, 8861359871476599, 48⟩,
    ⟨143, false, 3367025246442459, 45⟩]),
  ([8, 0, 3], [⟨132, false, 5775, 7⟩, ⟨134, true, 2138763506735011, 45⟩, ⟨136, false, 7305268117848253, 47⟩,
    ⟨138, true, 2655815656622197, 46⟩, ⟨140, false, 5491183873116731, 48⟩]),
  ([8, 3, 0], [⟨121, true, 3367025246442459, 45⟩, ⟨123, false, 8861359871476599, 48⟩,
    ⟨125, true, 8818347846484879, 50⟩, ⟨127, true, 3944474020505177, 51⟩, ⟨129, false, 8383592667515573, 51⟩,
    ⟨131, true, 7503278739932659, 52⟩]),
  ([0, 4, 7], [⟨132, false, 495, 2⟩, ⟨134, false, 4888602301108597, 45⟩, ⟨136, false, 1043609731121179, 44⟩]),
  ([0, 7, 4], [⟨125, true, 2519527956138537, 46⟩, ⟨127, true, 345141476794203, 42⟩,
    ⟨129, true, 1000315034192199, 43⟩, ⟨131, true, 586193651557239, 42⟩]),
  ([4, 0, 7], [⟨132, false, 495, 2⟩, ⟨134, true, 4888602301108597, 45⟩, ⟨136, false, 1043609731121179, 44⟩]),
  ([4, 7, 0], [⟨121, true, 3367025246442459, 44⟩, ⟨123, true, 664601990360745, 44⟩,
    ⟨125, false, 2519527956138537, 50⟩, ⟨127, false, 4338921422555695, 49⟩, ⟨129, false, 4572868727735767, 51⟩,
    ⟨131, true, 7503278739932659, 51⟩]),
  ([7, 0, 4], [⟨133, true, 586193651557239, 42⟩, ⟨135, false, 1000315034192199, 43⟩,
    ⟨137, true, 345141476794203, 42⟩, ⟨139, false, 2519527956138537, 46⟩]),
  ([7, 4, 0], [⟨133, true, 7503278739932659, 51⟩, ⟨135, true, 4572868727735767, 51⟩,
    ⟨137, false, 4338921422555695, 49⟩, ⟨139, true, 2519527956138537, 50⟩, ⟨141, true, 664601990360745, 44⟩,
    ⟨143, false, 3367025246442459, 44⟩]),
  ([0, 5, 6], [⟨127, false, 8835621805931597, 47⟩, ⟨129, false, 333438344730733, 41⟩,
    ⟨131, false, 7503278739932659, 45⟩]),
  ([0, 6, 5], [⟨132, true, 1155, 3⟩, ⟨134, true, 6416290520205033, 45⟩, ⟨136, true, 8766321741417903, 46⟩,
    ⟨138, true, 929535479817769, 44⟩]),
  ([5, 0, 6], [⟨133, false, 7503278739932659, 45⟩, ⟨135, true, 333438344730733, 41⟩,
    ⟨137, false, 8835621805931597, 47⟩]),
  ([5, 6, 0], [⟨133, true, 7503278739932659, 51⟩, ⟨135, true, 333438344730733, 46⟩,
    ⟨137, false, 345141476794203, 46⟩, ⟨139, false, 8818347846484879, 49⟩, ⟨141, true, 310147595501681, 44⟩,
    ⟨143, true, 4713835345019443, 44⟩]),
  ([6, 0, 5], [⟨132, true, 1155, 3⟩, ⟨134, false, 6416290520205033, 45⟩, ⟨136, true, 8766321741417903, 46⟩,
    ⟨138, false, 929535479817769, 44⟩]),
  ([6, 5, 0], [⟨121, false, 4713835345019443, 44⟩, ⟨123, true, 310147595501681, 44⟩,
    ⟨125, true, 8818347846484879, 49⟩, ⟨127, false, 345141476794203, 46⟩, ⟨129, false, 333438344730733, 46⟩,
    ⟨131, true, 7503278739932659, 51⟩]),
  ([1, 1, 9], [⟨130, false, 6518136401478129, 47⟩]),
  ([1, 9, 1], [⟨122, false, 119642032421493, 42⟩, ⟨124, false, 3660789248744487, 47⟩,
    ⟨126, false, 746948153424993, 45⟩, ⟨128, false, 1043609731121179, 46⟩, ⟨130, false, 2138763506735011, 48⟩]),
  ([9, 1, 1], [⟨122, false, 119642032421493, 42⟩, ⟨124, true, 3660789248744487, 47⟩,
    ⟨126, false, 746948153424993, 45⟩, ⟨128, true, 1043609731121179, 46⟩, ⟨130, false, 2138763506735011, 48⟩]),
  ([1, 2, 8], [⟨133, true, 401961361067821, 42⟩, ⟨135, true, 4572868727735767, 45⟩]),
  ([1, 8, 2], [⟨133, false, 2813729527474747, 47⟩, ⟨135, false, 1000315034192199, 44⟩,
    ⟨137, false, 2958355515378883, 45⟩, ⟨139, false, 6613760884863659, 46⟩, ⟨141, false, 664601990360745, 43⟩]),
  ([2, 1, 8], [⟨129, false, 4572868727735767, 45⟩, ⟨131, true, 401961361067821, 42⟩]),
  ([2, 8, 1], [⟨132, true, 3465, 8⟩, ⟨134, true, 6416290520205033, 49⟩, ⟨136, false, 3130829193363537, 48⟩,
    ⟨138, false, 3236775331508303, 46⟩, ⟨140, false, 3088790928628161, 45⟩, ⟨142, false, 8614226334347497, 46⟩]),
  ([8, 1, 2], [⟨123, false, 664601990360745, 43⟩, ⟨125, true, 6613760884863659, 46⟩,
    ⟨127, false, 2958355515378883, 45⟩, ⟨129, true, 1000315034192199, 44⟩, ⟨131, false, 2813729527474747, 47⟩]),
  ([8, 2, 1], [⟨132, true, 3465, 8⟩, ⟨134, false, 6416290520205033, 49⟩, ⟨136, false, 3130829193363537, 48⟩,
    ⟨138, true, 3236775331508303, 46⟩, ⟨140, false, 3088790928628161, 45⟩, ⟨142, true, 8614226334347497, 46⟩]),
  ([1, 3, 7], [⟨128, true, 1043609731121179, 42⟩, ⟨130, true, 4888602301108597, 44⟩]),
  ([1, 7, 3], [⟨124, true, 5491183873116731, 45⟩, ⟨126, true, 248982717808331, 40⟩,
    ⟨128, true, 7305268117848253, 45⟩, ⟨130, true, 2138763506735011, 44⟩]),
  ([3, 1, 7], [⟨128, false, 1043609731121179, 42⟩, ⟨130, true, 4888602301108597, 44⟩]),
  ([3, 7, 1], [⟨122, true, 358926097264479, 40⟩, ⟨124, true, 5491183873116731, 45⟩, ⟨126, true, 248982717808331, 43⟩,
    ⟨128, false, 1043609731121179, 45⟩, ⟨130, false, 2138763506735011, 46⟩]),
  ([7, 1, 3], [⟨124, false, 5491183873116731, 45⟩, ⟨126, true, 248982717808331, 40⟩,
    ⟨128, false, 7305268117848253, 45⟩, ⟨130, true, 2138763506735011, 44⟩]),
  ([7, 3, 1], [⟨122, true, 358926097264479, 40⟩, ⟨124, false, 5491183873116731, 45⟩,
    ⟨126, true, 248982717808331, 43⟩, ⟨128, true, 1043609731121179, 45⟩, ⟨130, false, 2138763506735011, 46⟩]),
  ([1, 4, 6], [⟨133, false, 7503278739932659, 45⟩, ⟨135, false, 1000315034192199, 41⟩,
    ⟨137, false, 345141476794203, 40⟩]),
  ([1, 6, 4], [⟨133, true, 586193651557239, 42⟩, ⟨135, true, 3000945102576597, 43⟩,
    ⟨137, true, 1725707383971015, 42⟩, ⟨139, true, 8818347846484879, 45⟩]),
  ([4, 1, 6], [⟨127, false, 345141476794203, 40⟩, ⟨129, true, 1000315034192199, 41⟩,
    ⟨131, false, 7503278739932659, 45⟩]),
  ([4, 6, 1], [⟨132, true, 3465, 7⟩, ⟨134, true, 2138763506735011, 48⟩, ⟨136, false, 7305268117848253, 47⟩,
    ⟨138, false, 1742879024658317, 45⟩, ⟨140, true, 4804785888977139, 45⟩, ⟨142, true, 2512482680851353, 42⟩]),
  ([6, 1, 4], [⟨125, false, 8818347846484879, 45⟩, ⟨127, true, 1725707383971015, 42⟩,
    ⟨129, false, 3000945102576597, 43⟩, ⟨131, true, 586193651557239, 42⟩]),
  ([6, 4, 1], [⟨132, true, 3465, 7⟩, ⟨134, false, 2138763506735011, 48⟩, ⟨136, false, 7305268117848253, 47⟩,
    ⟨138, true, 1742879024658317, 45⟩, ⟨140, true, 4804785888977139, 45⟩, ⟨142, false, 2512482680851353, 42⟩]),
  ([1, 5, 5], [⟨126, false, 2788606439453307, 43⟩, ⟨128, false, 8766321741417903, 44⟩,
    ⟨130, false, 6416290520205033, 44⟩]),
  ([5, 1, 5], [⟨126, false, 2788606439453307, 43⟩, ⟨128, true, 8766321741417903, 44⟩,
    ⟨130, false, 6416290520205033, 44⟩]),
  ([5, 5, 1], [⟨122, false, 376872402127703, 39⟩, ⟨126, true, 1742879024658317, 44⟩,
    ⟨130, false, 6416290520205033, 47⟩]),
  ([2, 2, 7], [⟨132, false, 495, 1⟩, ⟨136, true, 3130829193363537, 43⟩]),
  ([2, 7, 2], [⟨123, true, 664601990360745, 41⟩, ⟨125, true, 4724114917759757, 44⟩,
    ⟨127, true, 4733368824606213, 45⟩, ⟨131, false, 2813729527474747, 45⟩]),
  ([7, 2, 2], [⟨133, false, 2813729527474747, 45⟩, ⟨137, true, 4733368824606213, 45⟩,
    ⟨139, false, 4724114917759757, 44⟩, ⟨141, true, 664601990360745, 41⟩]),
  ([2, 3, 6], [⟨127, true, 345141476794203, 39⟩, ⟨129, true, 333438344730733, 40⟩, ⟨131, false, 7503278739932659, 44⟩]),
  ([2, 6, 3], [⟨132, false, 5775, 5⟩, ⟨134, false, 2138763506735011, 44⟩, ⟨136, true, 7305268117848253, 45⟩,
    ⟨138, true, 4647677399088845, 43⟩, ⟨140, true, 4804785888977139, 43⟩]),
  ([3, 2, 6], [⟨133, false, 7503278739932659, 44⟩, ⟨135, false, 333438344730733, 40⟩, ⟨137, true, 345141476794203, 39⟩]),
  ([3, 6, 2], [⟨133, false, 2813729527474747, 45⟩, ⟨135, false, 333438344730733, 41⟩,
    ⟨139, true, 6613760884863659, 44⟩, ⟨141, true, 1550737977508405, 41⟩]),
  ([6, 2, 3], [⟨132, false, 5775, 5⟩, ⟨134, true, 2138763506735011, 44⟩, ⟨136, true, 7305268117848253, 45⟩,
    ⟨138, false, 4647677399088845, 43⟩, ⟨140, true, 4804785888977139, 43⟩]),
  ([6, 3, 2], [⟨123, true, 1550737977508405, 41⟩, ⟨125, false, 6613760884863659, 44⟩,
    ⟨129, true, 333438344730733, 41⟩, ⟨131, false, 2813729527474747, 45⟩]),
  ([2, 4, 5], [⟨132, true, 3465, 3⟩, ⟨134, true, 6416290520205033, 45⟩, ⟨136, false, 2739475544193095, 42⟩,
    ⟨138, false, 1742879024658317, 41⟩]),
  ([2, 5, 4], [⟨125, false, 6613760884863659, 43⟩, ⟨127, false, 3106273291147827, 42⟩,
    ⟨129, false, 1000315034192199, 43⟩, ⟨131, true, 1758580954671717, 42⟩]),
  ([4, 2, 5], [⟨132, true, 3465, 3⟩, ⟨134, false, 6416290520205033, 45⟩, ⟨136, false, 2739475544193095, 42⟩,
    ⟨138, true, 1742879024658317, 41⟩]),
  ([4, 5, 2], [⟨123, false, 4652213932525215, 42⟩, ⟨125, false, 6613760884863659, 45⟩,
    ⟨127, true, 1035424430382609, 42⟩, ⟨129, true, 1000315034192199, 43⟩, ⟨131, false, 4220594291212121, 45⟩]),
  ([5, 2, 4], [⟨133, true, 1758580954671717, 42⟩, ⟨135, true, 1000315034192199, 43⟩,
    ⟨137, false, 3106273291147827, 42⟩, ⟨139, true, 6613760884863659, 43⟩]),
  ([5, 4, 2], [⟨133, false, 4220594291212121, 45⟩, ⟨135, false, 1000315034192199, 43⟩,
    ⟨137, true, 1035424430382609, 42⟩, ⟨139, true, 6613760884863659, 45⟩, ⟨141, false, 4652213932525215, 42⟩]),
  ([3, 3, 5], [⟨126, true, 4647677399088845, 42⟩, ⟨130, false, 6416290520205033, 43⟩]),
  ([3, 5, 3], [⟨124, false, 4804785888977139, 42⟩, ⟨126, false, 4647677399088845, 43⟩,
    ⟨128, true, 7305268117848253, 45⟩, ⟨130, true, 6416290520205033, 44⟩]),
  ([5, 3, 3], [⟨124, true, 4804785888977139, 42⟩, ⟨126, false, 4647677399088845, 43⟩,
    ⟨128, false, 7305268117848253, 45⟩, ⟨130, true, 6416290520205033, 44⟩]),
  ([3, 4, 4], [⟨133, true, 1758580954671717, 42⟩, ⟨135, true, 5001575170960995, 43⟩,
    ⟨137, false, 1725707383971015, 42⟩, ⟨139, false, 2755733702026525, 41⟩]),
  ([4, 3, 4], [⟨125, true, 2755733702026525, 41⟩, ⟨127, false, 1725707383971015, 42⟩,
    ⟨129, false, 5001575170960995, 43⟩, ⟨131, true, 1758580954671717, 42⟩]),
  ([4, 4, 3], [⟨132, false, 17325, 6⟩, ⟨136, true, 2282896286827579, 42⟩, ⟨140, false, 375373897576339, 38⟩])]

/-- The rows of `ls` for the monomials of degree 12 and the entries of `cm` in these rows:
so3/_spherical_harmonics_lut.npz. -/
def shippedRows12 : List (List Nat × List ShippedEntry) := [
  ([0, 0, 12], [⟨156, false, 1, 0⟩]),
  ([0, 12, 0], [⟨156, false, 231, 10⟩, ⟨158, false, 2892136124120283, 53⟩, ⟨160, false, 5903548142304441, 54⟩,
    ⟨162, false, 6133343537075393, 54⟩, ⟨164, false, 409288680574653, 50⟩, ⟨166, false, 7387838476988569, 54⟩,
    ⟨168, false, 2556999807847399, 52⟩]),
  ([12, 0, 0], [⟨156, false, 231, 10⟩, ⟨158, true, 2892136124120283, 53⟩, ⟨160, false, 5903548142304441, 54⟩,
    ⟨162, true, 6133343537075393, 54⟩, ⟨164, false, 409288680574653, 50⟩, ⟨166, true, 7387838476988569, 54⟩,
    ⟨168, false, 2556999807847399, 52⟩]),
  ([0, 1, 11], [⟨155, false, 1242959842081857, 47⟩]),
  ([0, 11, 1], [⟨145, true, 6263344801620761, 51⟩, ⟨147, true, 7502385439287797, 51⟩,
    ⟨149, true, 2046443402873265, 49⟩, ⟨151, true, 4302913153335067, 50⟩, ⟨153, true, 4427661106728331, 50⟩,
    ⟨155, true, 2243154090007101, 49⟩]),
  ([1, 0, 11], [⟨157, false, 1242959842081857, 47⟩]),
  ([1, 11, 0], [⟨144, true, 1917749855885549, 48⟩, ⟨146, true, 4617399048117855, 50⟩,
    ⟨148, true, 409288680574653, 47⟩, ⟨150, true, 4600007652806545, 51⟩, ⟨152, true, 5903548142304441, 52⟩,
    ⟨154, true, 2892136124120283, 52⟩]),
  ([11, 0, 1], [⟨157, true, 2243154090007101, 49⟩, ⟨159, false, 4427661106728331, 50⟩,
    ⟨161, true, 4302913153335067, 50⟩, ⟨163, false, 2046443402873265, 49⟩, ⟨165, true, 7502385439287797, 51⟩,
    ⟨167, false, 6263344801620761, 51⟩]),
  ([11, 1, 0], [⟨144, false, 1917749855885549, 48⟩, ⟨146, true, 4617399048117855, 50⟩,
    ⟨148, false, 409288680574653, 47⟩, ⟨150, true, 4600007652806545, 51⟩, ⟨152, false, 5903548142304441, 52⟩,
    ⟨154, true, 2892136124120283, 52⟩]),
  ([0, 2, 10], [⟨156, true, 33, 0⟩, ⟨158, true, 964045374706761, 45⟩]),
  ([0, 10, 2], [⟨156, true, 2079, 7⟩, ⟨158, true, 6326547771513119, 48⟩, ⟨160, true, 5903548142304441, 48⟩,
    ⟨162, true, 5175008609407363, 48⟩, ⟨164, true, 2046443402873265, 47⟩, ⟨166, true, 5079138952929641, 49⟩]),
  ([2, 0, 10], [⟨156, true, 33, 0⟩, ⟨158, false, 964045374706761, 45⟩]),
  ([2, 10, 0], [⟨156, false, 693, 9⟩, ⟨158, false, 2892136124120283, 51⟩, ⟨160, true, 5903548142304441, 53⟩,
    ⟨162, true, 4600007652806545, 50⟩, ⟨164, true, 5320752847470489, 49⟩, ⟨166, true, 5079138952929641, 48⟩,
    ⟨168, true, 1318453025921315, 45⟩]),
  ([10, 0, 2], [⟨156, true, 2079, 7⟩, ⟨158, false, 6326547771513119, 48⟩, ⟨160, true, 5903548142304441, 48⟩,
    ⟨162, false, 5175008609407363, 48⟩, ⟨164, true, 2046443402873265, 47⟩, ⟨166, false, 5079138952929641, 49⟩]),
  ([10, 2, 0], [⟨156, false, 693, 9⟩, ⟨158, true, 2892136124120283, 51⟩, ⟨160, true, 5903548142304441, 53⟩,
    ⟨162, false, 4600007652806545, 50⟩, ⟨164, true, 5320752847470489, 49⟩, ⟨166, false, 5079138952929641, 48⟩,
    ⟨168, true, 1318453025921315, 45⟩]),
  ([0, 3, 9], [⟨153, true, 7871397523072589, 47⟩, ⟨155, true, 4272674457156383, 45⟩]),
  ([0, 9, 3], [⟨147, false, 1562996966518291, 46⟩, ⟨149, false, 6139330208619795, 47⟩,
    ⟨151, false, 4302913153335067, 46⟩, ⟨153, false, 2582802312258193, 45⟩, ⟨155, false, 5607885225017753, 46⟩]),
  ([3, 0, 9], [⟨157, true, 4272674457156383, 45⟩, ⟨159, false, 7871397523072589, 47⟩]),
  ([3, 9, 0], [⟨144, false, 8789686839475433, 46⟩, ⟨146, false, 6348923691162051, 47⟩,
    ⟨148, false, 2046443402873265, 47⟩, ⟨150, false, 6133343537075393, 53⟩, ⟨152, true, 4427661106728331, 50⟩,
    ⟨154, true, 1807585077575177, 49⟩]),
  ([9, 0, 3], [⟨157, false, 5607885225017753, 46⟩, ⟨159, true, 2582802312258193, 45⟩,
    ⟨161, false, 4302913153335067, 46⟩, ⟨163, true, 6139330208619795, 47⟩, ⟨165, false, 1562996966518291, 46⟩]),
  ([9, 3, 0], [⟨144, true, 8789686839475433, 46⟩, ⟨146, false, 6348923691162051, 47⟩,
    ⟨148, true, 2046443402873265, 47⟩, ⟨150, false, 6133343537075393, 53⟩, ⟨152, false, 4427661106728331, 50⟩,
    ⟨154, true, 1807585077575177, 49⟩]),
  ([0, 4, 8], [⟨156, false, 1485, 3⟩, ⟨158, false, 1807585077575177, 43⟩, ⟨160, false, 5903548142304441, 46⟩]),
  ([0, 8, 4], [⟨156, false, 17325, 7⟩, ⟨158, false, 6326547771513119, 45⟩, ⟨160, false, 2582802312258193, 44⟩,
    ⟨162, false, 6900011479209817, 46⟩, ⟨164, false, 6139330208619795, 47⟩]),
  ([4, 0, 8], [⟨156, false, 1485, 3⟩, ⟨158, true, 1807585077575177, 43⟩, ⟨160, false, 5903548142304441, 46⟩]),
  ([4, 8, 0], [⟨156, false, 3465, 10⟩, ⟨158, false, 1807585077575177, 50⟩, ⟨160, true, 6272519901198469, 50⟩,
    ⟨162, true, 5175008609407363, 49⟩, ⟨164, false, 6139330208619795, 50⟩, ⟨166, false, 2380846384185769, 45⟩,
    ⟨168, false, 4944198847204931, 44⟩]),
  ([8, 0, 4], [⟨156, false, 17325, 7⟩, ⟨158, true, 6326547771513119, 45⟩, ⟨160, false, 2582802312258193, 44⟩,
    ⟨162, true, 6900011479209817, 46⟩, ⟨164, false, 6139330208619795, 47⟩]),
  ([8, 4, 0], [⟨156, false, 3465, 10⟩, ⟨158, true, 1807585077575177, 50⟩, ⟨160, true, 6272519901198469, 50⟩,
    ⟨162, false, 5175008609407363, 49⟩, ⟨164, false, 6139330208619795, 50⟩, ⟨166, true, 2380846384185769, 45⟩,
    ⟨168, false, 4944198847204931, 44⟩]),
  ([0, 5, 7], [⟨151, false, 6884661045336107, 46⟩, ⟨153, false, 4427661106728331, 44⟩,
    ⟨155, false, 3204505842867287, 43⟩]),
  ([0, 7, 5], [⟨149, true, 1227866041723959, 44⟩, ⟨151, true, 3012039207334547, 44⟩,
    ⟨153, true, 1162261040516187, 42⟩, ⟨155, true, 5607885225017753, 44⟩]),
  ([5, 0, 7], [⟨157, false, 3204505842867287, 43⟩, ⟨159, true, 4427661106728331, 44⟩,
    ⟨161, false, 6884661045336107, 46⟩]),
  ([5, 7, 0], [⟨144, true, 3955359077763945, 43⟩, ⟨146, true, 7618708429394461, 47⟩,
    ⟨148, false, 1227866041723959, 46⟩, ⟨150, false, 6900011479209817, 49⟩, ⟨152, true, 5903548142304441, 51⟩,
    ⟨154, true, 1807585077575177, 48⟩]),
  ([7, 0, 5], [⟨157, true, 5607885225017753, 44⟩, ⟨159, false, 1162261040516187, 42⟩,
    ⟨161, true, 3012039207334547, 44⟩, ⟨163, false, 1227866041723959, 44⟩]),
  ([7, 5, 0], [⟨144, false, 3955359077763945, 43⟩, ⟨146, true, 7618708429394461, 47⟩,
    ⟨148, true, 1227866041723959, 46⟩, ⟨150, false, 6900011479209817, 49⟩, ⟨152, false, 5903548142304441, 51⟩,
    ⟨154, true, 1807585077575177, 48⟩]),
  ([0, 6, 6], [⟨156, true, 1155, 2⟩, ⟨158, true, 6326547771513119, 44⟩, ⟨160, true, 4132483699613109, 44⟩,
    ⟨162, true, 6440010713929163, 46⟩]),
  ([6, 0, 6], [⟨156, true, 1155, 2⟩, ⟨158, false, 6326547771513119, 44⟩, ⟨160, true, 4132483699613109, 44⟩,
    ⟨162, false, 6440010713929163, 46⟩]),
  ([6, 6, 0], [⟨156, false, 1155, 8⟩, ⟨160, true, 2582802312258193, 48⟩, ⟨164, false, 8595062292067713, 48⟩,
    ⟨168, true, 2307292795362301, 42⟩]),
  ([1, 1, 10], [⟨154, false, 964045374706761, 44⟩]),
  ([1, 10, 1], [⟨157, true, 2243154090007101, 49⟩, ⟨159, true, 6641491660092497, 49⟩,
    ⟨161, true, 2689320720834417, 47⟩, ⟨163, true, 7162551910056427, 48⟩, ⟨165, true, 8440183619198771, 48⟩,
    ⟨167, true, 4306049551114273, 47⟩]),
  ([10, 1, 1], [⟨145, false, 4306049551114273, 47⟩, ⟨147, true, 8440183619198771, 48⟩,
    ⟨149, false, 7162551910056427, 48⟩, ⟨151, true, 2689320720834417, 47⟩, ⟨153, false, 6641491660092497, 49⟩,
    ⟨155, true, 2243154090007101, 49⟩]),
  ([1, 2, 9], [⟨157, true, 4272674457156383, 45⟩, ⟨159, true, 5903548142304441, 45⟩]),
  ([1, 9, 2], [⟨146, false, 6348923691162051, 46⟩, ⟨148, false, 2046443402873265, 44⟩,
    ⟨150, false, 1940628228527761, 44⟩, ⟨152, false, 5903548142304441, 46⟩, ⟨154, false, 6326547771513119, 47⟩]),
  ([2, 1, 9], [⟨153, false, 5903548142304441, 45⟩, ⟨155, true, 4272674457156383, 45⟩]),
  ([2, 9, 1], [⟨145, false, 5382561938892841, 45⟩, ⟨147, false, 2051433518555257, 44⟩,
    ⟨149, false, 1215075770456001, 44⟩, ⟨151, false, 7530098018336367, 48⟩, ⟨153, true, 4427661106728331, 50⟩,
    ⟨155, true, 5607885225017753, 48⟩]),
  ([9, 1, 2], [⟨146, false, 6348923691162051, 46⟩, ⟨148, true, 2046443402873265, 44⟩,
    ⟨150, false, 1940628228527761, 44⟩, ⟨152, true, 5903548142304441, 46⟩, ⟨154, false, 6326547771513119, 47⟩]),
  ([9, 2, 1], [⟨157, true, 5607885225017753, 48⟩, ⟨159, false, 4427661106728331, 50⟩,
    ⟨161, false, 7530098018336367, 48⟩, ⟨163, true, 1215075770456001, 44⟩, ⟨165, false, 2051433518555257, 44⟩,
    ⟨167, true, 5382561938892841, 45⟩]),
  ([1, 3, 8], [⟨152, true, 5903548142304441, 44⟩, ⟨154, true, 1807585077575177, 42⟩]),
  ([1, 8, 3], [⟨157, false, 5607885225017753, 46⟩, ⟨159, false, 7748406936774579, 45⟩,
    ⟨161, false, 2689320720834417, 43⟩, ⟨163, false, 335744620783895, 40⟩, ⟨165, false, 3516743174666155, 44⟩]),
  ([3, 1, 8], [⟨152, false, 5903548142304441, 44⟩, ⟨154, true, 1807585077575177, 42⟩]),
  ([3, 8, 1], [⟨157, true, 5607885225017753, 48⟩, ⟨159, true, 6088034021751455, 47⟩,
    ⟨161, true, 2689320720834417, 47⟩, ⟨163, false, 335744620783895, 42⟩, ⟨165, false, 8791857936665387, 45⟩,
    ⟨167, false, 4036921454169631, 43⟩]),
  ([8, 1, 3], [⟨147, false, 3516743174666155, 44⟩, ⟨149, true, 335744620783895, 40⟩,
    ⟨151, false, 2689320720834417, 43⟩, ⟨153, true, 7748406936774579, 45⟩, ⟨155, false, 5607885225017753, 46⟩]),
  ([8, 3, 1], [⟨145, true, 4036921454169631, 43⟩, ⟨147, false, 8791857936665387, 45⟩,
    ⟨149, true, 335744620783895, 42⟩, ⟨151, true, 2689320720834417, 47⟩, ⟨153, false, 6088034021751455, 47⟩,
    ⟨155, true, 5607885225017753, 48⟩]),
  ([1, 4, 7], [⟨157, false, 3204505842867287, 43⟩, ⟨159, false, 6641491660092497, 43⟩,
    ⟨161, false, 4302913153335067, 43⟩]),
  ([1, 7, 4], [⟨148, true, 6139330208619795, 44⟩, ⟨150, true, 5175008609407363, 43⟩,
    ⟨152, true, 2582802312258193, 42⟩, ⟨154, true, 6326547771513119, 44⟩]),
  ([4, 1, 7], [⟨151, false, 4302913153335067, 43⟩, ⟨153, true, 6641491660092497, 43⟩,
    ⟨155, false, 3204505842867287, 43⟩]),
  ([4, 7, 1], [⟨145, true, 4036921454169631, 42⟩, ⟨147, true, 41211834078119, 37⟩,
    ⟨149, false, 6139330208619795, 48⟩, ⟨151, false, 5916505585835717, 46⟩, ⟨153, false, 6641491660092497, 48⟩,
    ⟨155, true, 5607885225017753, 47⟩]),
  ([7, 1, 4], [⟨148, false, 6139330208619795, 44⟩, ⟨150, true, 5175008609407363, 43⟩,
    ⟨152, false, 2582802312258193, 42⟩, ⟨154, true, 6326547771513119, 44⟩]),
  ([7, 4, 1], [⟨157, true, 5607885225017753, 47⟩, ⟨159, true, 6641491660092497, 48⟩,
    ⟨161, false, 5916505585835717, 46⟩, ⟨163, true, 6139330208619795, 48⟩, ⟨165, true, 41211834078119, 37⟩,
    ⟨167, false, 4036921454169631, 42⟩]),
  ([1, 5, 6], [⟨150, false, 603751004430859, 40⟩, ⟨152, false, 4132483699613109, 42⟩,
    ⟨154, false, 6326547771513119, 43⟩]),
  ([1, 6, 5], [⟨157, true, 5607885225017753, 44⟩, ⟨159, true, 6973566243097121, 43⟩,
    ⟨161, true, 7530098018336367, 43⟩, ⟨163, true, 8595062292067713, 44⟩]),
  ([5, 1, 6], [⟨150, false, 603751004430859, 40⟩, ⟨152, true, 4132483699613109, 42⟩,
    ⟨154, false, 6326547771513119, 43⟩]),
  ([5, 6, 1], [⟨157, true, 5607885225017753, 47⟩, ⟨159, true, 7748406936774579, 47⟩,
    ⟨161, false, 7530098018336367, 47⟩, ⟨163, false, 335744620783895, 41⟩, ⟨165, true, 4923440444532617, 45⟩,
    ⟨167, true, 5651690035837483, 42⟩]),
  ([6, 1, 5], [⟨149, false, 8595062292067713, 44⟩, ⟨151, true, 7530098018336367, 43⟩,
    ⟨153, false, 6973566243097121, 43⟩, ⟨155, true, 5607885225017753, 44⟩]),
  ([6, 5, 1], [⟨145, false, 5651690035837483, 42⟩, ⟨147, true, 4923440444532617, 45⟩,
    ⟨149, true, 335744620783895, 41⟩, ⟨151, false, 7530098018336367, 47⟩, ⟨153, false, 7748406936774579, 47⟩,
    ⟨155, true, 5607885225017753, 47⟩]),
  ([2, 2, 8], [⟨156, false, 1485, 2⟩, ⟨160, true, 4427661106728331, 43⟩]),
  ([2, 8, 2], [⟨156, true, 10395, 7⟩, ⟨158, true, 4744910828634839, 46⟩, ⟨160, false, 4427661106728331, 46⟩,
    ⟨162, false, 8409388990286965, 45⟩, ⟨164, false, 6906746484697269, 44⟩, ⟨166, false, 1785634788139327, 42⟩]),
  ([8, 2, 2], [⟨156, true, 10395, 7⟩, ⟨158, false, 4744910828634839, 46⟩, ⟨160, false, 4427661106728331, 46⟩,
    ⟨162, true, 8409388990286965, 45⟩, ⟨164, false, 6906746484697269, 44⟩, ⟨166, true, 1785634788139327, 42⟩]),
  ([2, 3, 7], [⟨151, true, 4302913153335067, 42⟩, ⟨153, true, 4427661106728331, 43⟩,
    ⟨155, false, 3204505842867287, 42⟩]),
  ([2, 7, 3], [⟨147, true, 3516743174666155, 42⟩, ⟨149, true, 7674162760774743, 43⟩,
    ⟨151, true, 4302913153335067, 43⟩, ⟨155, false, 5607885225017753, 44⟩]),
  ([3, 2, 7], [⟨157, false, 3204505842867287, 42⟩, ⟨159, false, 4427661106728331, 43⟩,
    ⟨161, true, 4302913153335067, 42⟩]),
  ([3, 7, 2], [⟨146, true, 2380846384185769, 41⟩, ⟨148, true, 6139330208619795, 43⟩,
    ⟨150, true, 5175008609407363, 45⟩, ⟨152, false, 5903548142304441, 45⟩, ⟨154, false, 6326547771513119, 45⟩]),
  ([7, 2, 3], [⟨157, false, 5607885225017753, 44⟩, ⟨161, true, 4302913153335067, 43⟩,
    ⟨163, false, 7674162760774743, 43⟩, ⟨165, true, 3516743174666155, 42⟩]),
  ([7, 3, 2], [⟨146, true, 2380846384185769, 41⟩, ⟨148, false, 6139330208619795, 43⟩,
    ⟨150, true, 5175008609407363, 45⟩, ⟨152, true, 5903548142304441, 45⟩, ⟨154, false, 6326547771513119, 45⟩]),
  ([2, 4, 6], [⟨156, true, 3465, 2⟩, ⟨158, true, 6326547771513119, 44⟩, ⟨160, false, 2582802312258193, 41⟩,
    ⟨162, false, 3018755022154295, 41⟩]),
  ([2, 6, 4], [⟨156, false, 17325, 5⟩, ⟨158, false, 6326547771513119, 44⟩, ⟨160, true, 2582802312258193, 42⟩,
    ⟨162, true, 3018755022154295, 41⟩, ⟨164, true, 335744620783895, 38⟩]),
  ([4, 2, 6], [⟨156, true, 3465, 2⟩, ⟨158, false, 6326547771513119, 44⟩, ⟨160, false, 2582802312258193, 41⟩,
    ⟨162, true, 3018755022154295, 41⟩]),
  ([4, 6, 2], [⟨156, true, 10395, 6⟩, ⟨158, true, 6326547771513119, 47⟩, ⟨160, false, 2582802312258193, 43⟩,
    ⟨162, false, 2264066266615721, 43⟩, ⟨164, true, 335744620783895, 39⟩, ⟨166, true, 520810146540637, 38⟩]),
  ([6, 2, 4], [⟨156, false, 17325, 5⟩, ⟨158, true, 6326547771513119, 44⟩, ⟨160, true, 2582802312258193, 42⟩,
    ⟨162, false, 3018755022154295, 41⟩, ⟨164, true, 335744620783895, 38⟩]),
  ([6, 4, 2], [⟨156, true, 10395, 6⟩, ⟨158, false, 6326547771513119, 47⟩, ⟨160, false, 2582802312258193, 43⟩,
    ⟨162, true, 2264066266615721, 43⟩, ⟨164, true, 335744620783895, 39⟩, ⟨166, false, 520810146540637, 38⟩]),
  ([2, 5, 5], [⟨149, false, 201446772470337, 37⟩, ⟨151, false, 6777088216502731, 42⟩,
    ⟨153, false, 1162261040516187, 42⟩, ⟨155, true, 8411827837526629, 43⟩]),
  ([5, 2, 5], [⟨157, true, 8411827837526629, 43⟩, ⟨159, true, 1162261040516187, 42⟩,
    ⟨161, false, 6777088216502731, 42⟩, ⟨163, true, 201446772470337, 37⟩]),
  ([5, 5, 2], [⟨146, false, 4999777406790115, 41⟩, ⟨150, true, 2264066266615721, 42⟩,
    ⟨154, false, 4744910828634839, 44⟩]),
  ([3, 3, 6], [⟨150, true, 8050013392411453, 42⟩, ⟨154, false, 6326547771513119, 42⟩]),
  ([3, 6, 3], [⟨157, false, 5607885225017753, 44⟩, ⟨159, false, 2582802312258193, 42⟩,
    ⟨163, true, 335744620783895, 38⟩, ⟨165, true, 2051433518555257, 40⟩]),
  ([6, 3, 3], [⟨147, true, 2051433518555257, 40⟩, ⟨149, false, 335744620783895, 38⟩,
    ⟨153, true, 2582802312258193, 42⟩, ⟨155, false, 5607885225017753, 44⟩]),
  ([3, 4, 5], [⟨157, true, 8411827837526629, 43⟩, ⟨159, true, 5811305202580935, 42⟩,
    ⟨161, false, 7530098018336367, 43⟩, ⟨163, false, 335744620783895, 37⟩]),
  ([3, 5, 4], [⟨148, false, 335744620783895, 37⟩, ⟨150, false, 3018755022154295, 41⟩,
    ⟨152, true, 2582802312258193, 42⟩, ⟨154, true, 4744910828634839, 42⟩]),
  ([4, 3, 5], [⟨149, true, 335744620783895, 37⟩, ⟨151, false, 7530098018336367, 43⟩,
    ⟨153, false, 5811305202580935, 42⟩, ⟨155, true, 8411827837526629, 43⟩]),
  ([4, 5, 3], [⟨147, false, 6154300555665771, 41⟩, ⟨149, false, 335744620783895, 39⟩,
    ⟨151, true, 7530098018336367, 43⟩, ⟨153, true, 7748406936774579, 44⟩, ⟨155, false, 8411827837526629, 44⟩]),
  ([5, 3, 4], [⟨148, true, 335744620783895, 37⟩, ⟨150, false, 3018755022154295, 41⟩,
    ⟨152, false, 2582802312258193, 42⟩, ⟨154, true, 4744910828634839, 42⟩]),
  ([5, 4, 3], [⟨157, false, 8411827837526629, 44⟩, ⟨159, false, 7748406936774579, 44⟩,
    ⟨161, true, 7530098018336367, 43⟩, ⟨163, true, 335744620783895, 39⟩, ⟨165, false, 6154300555665771, 41⟩]),
  ([4, 4, 4], [⟨156, false, 51975, 6⟩, ⟨160, true, 6457005780645483, 42⟩, ⟨164, false, 1678723103919475, 39⟩])]

/-- The rows of `ls` for the monomials of degree 13 and the entries of `cm` in these rows:
so3/_spherical_harmonics_lut.npz. -/
def shippedRows13 : List (List Nat × List ShippedEntry) := [
  ([0, 0, 13], [⟨182, false, 1, 0⟩]),
  ([0, 13, 0], [⟨169, false, 5014689198641111, 53⟩, ⟨171, false, 7232287614486379, 54⟩,
    ⟨173, false, 6398055800128237, 54⟩, ⟨175, false, 5978043810193705, 54⟩, ⟨177, false, 5737217537780089, 54⟩,
    ⟨179, false, 2800298760920681, 53⟩, ⟨181, false, 5538019049108217, 54⟩]),
  ([13, 0, 0], [⟨183, false, 5538019049108217, 54⟩, ⟨185, true, 2800298760920681, 53⟩,
    ⟨187, false, 5737217537780089, 54⟩, ⟨189, true, 5978043810193705, 54⟩, ⟨191, false, 6398055800128237, 54⟩,
    ⟨193, true, 7232287614486379, 54⟩, ⟨195, false, 5014689198641111, 53⟩]),
  ([0, 1, 12], [⟨181, false, 5370200290044331, 49⟩]),
  ([0, 12, 1], [⟨182, false, 3003, 10⟩, ⟨184, false, 4643770145435519, 50⟩, ⟨186, false, 4563928604370025, 50⟩,
    ⟨188, false, 4420823015996347, 50⟩, ⟨190, false, 2096980479456517, 49⟩, ⟨192, false, 1917749855885549, 49⟩,
    ⟨194, false, 6392499519618497, 51⟩]),
  ([1, 0, 12], [⟨183, false, 5370200290044331, 49⟩]),
  ([1, 12, 0], [⟨183, false, 5538019049108217, 54⟩, ⟨185, false, 4200448141381021, 52⟩,
    ⟨187, false, 896440240278139, 49⟩, ⟨189, false, 1307697083479873, 49⟩, ⟨191, false, 7197812775144267, 51⟩,
    ⟨193, false, 4972197734959385, 50⟩, ⟨195, false, 8148869947791805, 50⟩]),
  ([12, 0, 1], [⟨182, false, 3003, 10⟩, ⟨184, true, 4643770145435519, 50⟩, ⟨186, false, 4563928604370025, 50⟩,
    ⟨188, true, 4420823015996347, 50⟩, ⟨190, false, 2096980479456517, 49⟩, ⟨192, true, 1917749855885549, 49⟩,
    ⟨194, false, 6392499519618497, 51⟩]),
  ([12, 1, 0], [⟨169, false, 8148869947791805, 50⟩, ⟨171, true, 4972197734959385, 50⟩,
    ⟨173, false, 7197812775144267, 51⟩, ⟨175, true, 1307697083479873, 49⟩, ⟨177, false, 896440240278139, 49⟩,
    ⟨179, true, 4200448141381021, 52⟩, ⟨181, false, 5538019049108217, 54⟩]),
  ([0, 2, 11], [⟨182, true, 39, 0⟩, ⟨184, true, 9006099675996159, 48⟩]),
  ([0, 11, 2], [⟨171, true, 339013481929049, 45⟩, ⟨173, true, 4398663362588163, 48⟩,
    ⟨175, true, 2802208036028299, 47⟩, ⟨177, true, 6454369730002601, 48⟩, ⟨179, true, 3500373451150851, 47⟩,
    ⟨181, true, 3634325000977267, 47⟩]),
  ([2, 0, 11], [⟨182, true, 39, 0⟩, ⟨184, false, 9006099675996159, 48⟩]),
  ([2, 11, 0], [⟨169, true, 3055826230421927, 46⟩, ⟨171, true, 3051121337361441, 47⟩,
    ⟨173, true, 1699483571909063, 47⟩, ⟨175, true, 3362649643233959, 49⟩, ⟨177, true, 4302913153335067, 51⟩,
    ⟨179, false, 2800298760920681, 52⟩, ⟨181, false, 8307028573662325, 52⟩]),
  ([11, 0, 2], [⟨183, true, 3634325000977267, 47⟩, ⟨185, false, 3500373451150851, 47⟩,
    ⟨187, true, 6454369730002601, 48⟩, ⟨189, false, 2802208036028299, 47⟩, ⟨191, true, 4398663362588163, 48⟩,
    ⟨193, false, 339013481929049, 45⟩]),
  ([11, 2, 0], [⟨183, false, 8307028573662325, 52⟩, ⟨185, true, 2800298760920681, 52⟩,
    ⟨187, true, 4302913153335067, 51⟩, ⟨189, false, 3362649643233959, 49⟩, ⟨191, true, 1699483571909063, 47⟩,
    ⟨193, false, 3051121337361441, 47⟩, ⟨195, true, 3055826230421927, 46⟩]),
  ([0, 3, 10], [⟨179, true, 622288613537929, 43⟩, ⟨181, true, 5538019049108217, 45⟩]),
  ([0, 10, 3], [⟨182, true, 9009, 7⟩, ⟨184, true, 6772164795426799, 46⟩, ⟨186, true, 6085238139160033, 46⟩,
    ⟨188, true, 2486712946497945, 45⟩, ⟨190, true, 6989934931521723, 47⟩, ⟨192, true, 7031749471580347, 48⟩]),
  ([3, 0, 10], [⟨183, true, 5538019049108217, 45⟩, ⟨185, false, 622288613537929, 43⟩]),
  ([3, 10, 0], [⟨183, false, 8307028573662325, 52⟩, ⟨185, false, 4900522831611191, 50⟩,
    ⟨187, false, 896440240278139, 48⟩, ⟨189, true, 1307697083479873, 48⟩, ⟨191, true, 6597995043882245, 48⟩,
    ⟨193, true, 2175336509044731, 45⟩, ⟨195, true, 2801174044553433, 44⟩]),
  ([10, 0, 3], [⟨182, true, 9009, 7⟩, ⟨184, false, 6772164795426799, 46⟩, ⟨186, true, 6085238139160033, 46⟩,
    ⟨188, false, 2486712946497945, 45⟩, ⟨190, true, 6989934931521723, 47⟩, ⟨192, false, 7031749471580347, 48⟩]),
  ([10, 3, 0], [⟨169, true, 2801174044553433, 44⟩, ⟨171, false, 2175336509044731, 45⟩,
    ⟨173, true, 6597995043882245, 48⟩, ⟨175, false, 1307697083479873, 48⟩, ⟨177, false, 896440240278139, 48⟩,
    ⟨179, true, 4900522831611191, 50⟩, ⟨181, false, 8307028573662325, 52⟩]),
  ([0, 4, 9], [⟨182, false, 2145, 3⟩, ⟨184, false, 2579872303019733, 43⟩, ⟨186, false, 8113650852213377, 46⟩]),
  ([0, 9, 4], [⟨173, false, 7331105604313605, 47⟩, ⟨175, false, 8406624108084897, 46⟩,
    ⟨177, false, 6454369730002601, 45⟩, ⟨179, false, 8167538052685319, 45⟩, ⟨181, false, 283931640701349, 40⟩]),
  ([4, 0, 9], [⟨182, false, 2145, 3⟩, ⟨184, true, 2579872303019733, 43⟩, ⟨186, false, 8113650852213377, 46⟩]),
  ([4, 9, 0], [⟨169, false, 3501467555691791, 43⟩, ⟨171, false, 971132370109255, 43⟩,
    ⟨173, false, 1374582300808801, 46⟩, ⟨175, true, 583793340839229, 46⟩, ⟨177, true, 2599676696806603, 48⟩,
    ⟨179, true, 3500373451150851, 51⟩, ⟨181, false, 5191892858538953, 50⟩]),
  ([9, 0, 4], [⟨183, false, 283931640701349, 40⟩, ⟨185, true, 8167538052685319, 45⟩,
    ⟨187, false, 6454369730002601, 45⟩, ⟨189, true, 8406624108084897, 46⟩, ⟨191, false, 7331105604313605, 47⟩]),
  ([9, 4, 0], [⟨183, false, 5191892858538953, 50⟩, ⟨185, false, 3500373451150851, 51⟩,
    ⟨187, true, 2599676696806603, 48⟩, ⟨189, false, 583793340839229, 46⟩, ⟨191, false, 1374582300808801, 46⟩,
    ⟨193, true, 971132370109255, 43⟩, ⟨195, false, 3501467555691791, 43⟩]),
  ([0, 5, 8], [⟨177, false, 161359243250065, 40⟩, ⟨179, false, 3500373451150851, 43⟩,
    ⟨181, false, 5191892858538953, 43⟩]),
  ([0, 8, 5], [⟨182, false, 45045, 7⟩, ⟨184, false, 8126597754512159, 44⟩, ⟨186, false, 6389500046118035, 44⟩,
    ⟨188, false, 7957481428793425, 45⟩, ⟨190, false, 6290941438369551, 46⟩]),
  ([5, 0, 8], [⟨183, false, 5191892858538953, 43⟩, ⟨185, true, 3500373451150851, 43⟩,
    ⟨187, false, 161359243250065, 40⟩]),
  ([5, 8, 0], [⟨183, false, 5191892858538953, 50⟩, ⟨185, false, 8750933627877127, 50⟩,
    ⟨187, true, 6454369730002601, 51⟩, ⟨189, true, 1471159218914857, 46⟩, ⟨191, true, 6597995043882245, 49⟩,
    ⟨193, false, 8390583677743963, 46⟩, ⟨195, false, 787830200030653, 40⟩]),
  ([8, 0, 5], [⟨182, false, 45045, 7⟩, ⟨184, true, 8126597754512159, 44⟩, ⟨186, false, 6389500046118035, 44⟩,
    ⟨188, true, 7957481428793425, 45⟩, ⟨190, false, 6290941438369551, 46⟩]),
  ([8, 5, 0], [⟨169, false, 787830200030653, 40⟩, ⟨171, true, 8390583677743963, 46⟩,
    ⟨173, true, 6597995043882245, 49⟩, ⟨175, false, 1471159218914857, 46⟩, ⟨177, true, 6454369730002601, 51⟩,
    ⟨179, true, 8750933627877127, 50⟩, ⟨181, false, 5191892858538953, 50⟩]),
  ([0, 6, 7], [⟨182, true, 2145, 2⟩, ⟨184, true, 5804712681794399, 43⟩, ⟨186, true, 912785720874005, 41⟩,
    ⟨188, true, 165780863099863, 40⟩]),
  ([0, 7, 6], [⟨175, true, 8967065715290557, 46⟩, ⟨177, true, 3012039207334547, 43⟩,
    ⟨179, true, 4900522831611191, 43⟩, ⟨181, true, 94643880233783, 37⟩]),
  ([6, 0, 7], [⟨182, true, 2145, 2⟩, ⟨184, false, 5804712681794399, 43⟩, ⟨186, true, 912785720874005, 41⟩,
    ⟨188, false, 165780863099863, 40⟩]),
  ([6, 7, 0], [⟨169, true, 8403522133660299, 43⟩, ⟨171, true, 3729148301219539, 46⟩,
    ⟨173, false, 6597995043882245, 47⟩, ⟨175, false, 3362649643233959, 48⟩, ⟨177, true, 6454369730002601, 49⟩,
    ⟨179, true, 3500373451150851, 49⟩, ⟨181, false, 6922523811385271, 50⟩]),
  ([7, 0, 6], [⟨183, true, 94643880233783, 37⟩, ⟨185, false, 4900522831611191, 43⟩,
    ⟨187, true, 3012039207334547, 43⟩, ⟨189, false, 8967065715290557, 46⟩]),
  ([7, 6, 0], [⟨183, false, 6922523811385271, 50⟩, ⟨185, false, 3500373451150851, 49⟩,
    ⟨187, true, 6454369730002601, 49⟩, ⟨189, true, 3362649643233959, 48⟩, ⟨191, false, 6597995043882245, 47⟩,
    ⟨193, false, 3729148301219539, 46⟩, ⟨195, true, 8403522133660299, 43⟩]),
  ([1, 1, 11], [⟨180, false, 9006099675996159, 47⟩]),
  ([1, 11, 1], [⟨170, true, 4794374639713873, 47⟩, ⟨172, true, 4794374639713873, 47⟩,
    ⟨174, true, 2096980479456517, 46⟩, ⟨176, true, 828904315499315, 45⟩, ⟨178, true, 4563928604370025, 48⟩,
    ⟨180, true, 4643770145435519, 49⟩]),
  ([11, 1, 1], [⟨170, false, 4794374639713873, 47⟩, ⟨172, true, 4794374639713873, 47⟩,
    ⟨174, false, 2096980479456517, 46⟩, ⟨176, true, 828904315499315, 45⟩, ⟨178, false, 4563928604370025, 48⟩,
    ⟨180, true, 4643770145435519, 49⟩]),
  ([1, 2, 10], [⟨183, true, 5538019049108217, 45⟩, ⟨185, true, 7467463362455149, 45⟩]),
  ([1, 10, 2], [⟨183, true, 3634325000977267, 47⟩, ⟨185, true, 1312640044181569, 44⟩,
    ⟨187, true, 8067962162503251, 46⟩, ⟨189, true, 1225966015762381, 43⟩, ⟨191, true, 1237124070727921, 43⟩,
    ⟨193, true, 3729148301219539, 45⟩]),
  ([2, 1, 10], [⟨179, false, 7467463362455149, 45⟩, ⟨181, true, 5538019049108217, 45⟩]),
  ([2, 10, 1], [⟨182, false, 9009, 9⟩, ⟨184, false, 4643770145435519, 48⟩, ⟨186, true, 4563928604370025, 49⟩,
    ⟨188, true, 828904315499315, 44⟩, ⟨190, true, 425949159889605, 42⟩, ⟨192, true, 1318453025921315, 43⟩,
    ⟨194, true, 6592265129606575, 45⟩]),
  ([10, 1, 2], [⟨171, false, 3729148301219539, 45⟩, ⟨173, true, 1237124070727921, 43⟩,
    ⟨175, false, 1225966015762381, 43⟩, ⟨177, true, 8067962162503251, 46⟩, ⟨179, false, 1312640044181569, 44⟩,
    ⟨181, true, 3634325000977267, 47⟩]),
  ([10, 2, 1], [⟨182, false, 9009, 9⟩, ⟨184, true, 4643770145435519, 48⟩, ⟨186, true, 4563928604370025, 49⟩,
    ⟨188, false, 828904315499315, 44⟩, ⟨190, true, 425949159889605, 42⟩, ⟨192, false, 1318453025921315, 43⟩,
    ⟨194, true, 6592265129606575, 45⟩]),
  ([1, 3, 9], [⟨178, true, 8113650852213377, 44⟩, ⟨180, true, 2579872303019733, 42⟩]),
  ([1, 9, 3], [⟨172, false, 8789686839475433, 45⟩, ⟨174, false, 6989934931521723, 44⟩,
    ⟨176, false, 1865034709873459, 42⟩, ⟨178, false, 6085238139160033, 44⟩, ⟨180, false, 6772164795426799, 45⟩]),
  ([3, 1, 9], [⟨178, false, 8113650852213377, 44⟩, ⟨180, true, 2579872303019733, 42⟩]),
  ([3, 9, 1], [⟨170, false, 2746777137336073, 42⟩, ⟨172, false, 6592265129606575, 44⟩,
    ⟨174, false, 1310612799660323, 43⟩, ⟨176, false, 4420823015996347, 49⟩, ⟨178, true, 6845892906555037, 47⟩,
    ⟨180, true, 5804712681794399, 47⟩]),
  ([9, 1, 3], [⟨172, false, 8789686839475433, 45⟩, ⟨174, true, 6989934931521723, 44⟩,
    ⟨176, false, 1865034709873459, 42⟩, ⟨178, true, 6085238139160033, 44⟩, ⟨180, false, 6772164795426799, 45⟩]),
  ([9, 3, 1], [⟨170, true, 2746777137336073, 42⟩, ⟨172, false, 6592265129606575, 44⟩,
    ⟨174, true, 1310612799660323, 43⟩, ⟨176, false, 4420823015996347, 49⟩, ⟨178, false, 6845892906555037, 47⟩,
    ⟨180, true, 5804712681794399, 47⟩]),
  ([1, 4, 8], [⟨183, false, 5191892858538953, 43⟩, ⟨185, false, 1312640044181569, 40⟩,
    ⟨187, false, 6454369730002601, 43⟩]),
  ([1, 8, 4], [⟨183, false, 283931640701349, 40⟩, ⟨185, false, 6125653539513989, 43⟩,
    ⟨187, false, 8067962162503251, 43⟩, ⟨189, false, 7355796094574285, 43⟩, ⟨191, false, 4123746902426403, 43⟩]),
  ([4, 1, 8], [⟨177, false, 6454369730002601, 43⟩, ⟨179, true, 1312640044181569, 40⟩,
    ⟨181, false, 5191892858538953, 43⟩]),
  ([4, 8, 1], [⟨182, false, 45045, 10⟩, ⟨184, false, 5804712681794399, 48⟩, ⟨186, true, 4849174142143151, 46⟩,
    ⟨188, true, 1865034709873459, 44⟩, ⟨190, false, 3931838398980969, 46⟩, ⟨192, false, 4944198847204931, 43⟩,
    ⟨194, false, 1545062139751541, 40⟩]),
  ([8, 1, 4], [⟨173, false, 4123746902426403, 43⟩, ⟨175, true, 7355796094574285, 43⟩,
    ⟨177, false, 8067962162503251, 43⟩, ⟨179, true, 6125653539513989, 43⟩, ⟨181, false, 283931640701349, 40⟩]),
  ([8, 4, 1], [⟨182, false, 45045, 10⟩, ⟨184, true, 5804712681794399, 48⟩, ⟨186, true, 4849174142143151, 46⟩,
    ⟨188, false, 1865034709873459, 44⟩, ⟨190, false, 3931838398980969, 46⟩, ⟨192, true, 4944198847204931, 43⟩,
    ⟨194, false, 1545062139751541, 40⟩]),
  ([1, 5, 7], [⟨176, false, 7957481428793425, 43⟩, ⟨178, false, 912785720874005, 39⟩,
    ⟨180, false, 5804712681794399, 42⟩]),
  ([1, 7, 5], [⟨174, true, 6290941438369551, 43⟩, ⟨176, true, 1492027767898767, 40⟩,
    ⟨178, true, 6389500046118035, 42⟩, ⟨180, true, 8126597754512159, 43⟩]),
  ([5, 1, 7], [⟨176, false, 7957481428793425, 43⟩, ⟨178, true, 912785720874005, 39⟩,
    ⟨180, false, 5804712681794399, 42⟩]),
  ([5, 7, 1], [⟨170, true, 4944198847204931, 41⟩, ⟨172, true, 3955359077763945, 43⟩,
    ⟨174, false, 6290941438369551, 45⟩, ⟨176, false, 2486712946497945, 44⟩, ⟨178, true, 4563928604370025, 47⟩,
    ⟨180, true, 5804712681794399, 46⟩]),
  ([7, 1, 5], [⟨174, false, 6290941438369551, 43⟩, ⟨176, true, 1492027767898767, 40⟩,
    ⟨178, false, 6389500046118035, 42⟩, ⟨180, true, 8126597754512159, 43⟩]),
  ([7, 5, 1], [⟨170, false, 4944198847204931, 41⟩, ⟨172, true, 3955359077763945, 43⟩,
    ⟨174, true, 6290941438369551, 45⟩, ⟨176, false, 2486712946497945, 44⟩, ⟨178, false, 4563928604370025, 47⟩,
    ⟨180, true, 5804712681794399, 46⟩]),
  ([1, 6, 6], [⟨183, true, 94643880233783, 37⟩, ⟨185, true, 7350784247416787, 42⟩, ⟨187, true, 7530098018336367, 42⟩,
    ⟨189, true, 3923091250439619, 42⟩]),
  ([6, 1, 6], [⟨175, false, 3923091250439619, 42⟩, ⟨177, true, 7530098018336367, 42⟩,
    ⟨179, false, 7350784247416787, 42⟩, ⟨181, true, 94643880233783, 37⟩]),
  ([6, 6, 1], [⟨182, false, 15015, 8⟩, ⟨186, true, 7986875057647543, 46⟩, ⟨190, false, 5504573758573357, 44⟩,
    ⟨194, true, 5768231988405753, 41⟩]),
  ([2, 2, 9], [⟨182, false, 2145, 2⟩, ⟨186, true, 6085238139160033, 43⟩]),
  ([2, 9, 2], [⟨171, false, 582679422065553, 40⟩, ⟨173, false, 1202759513207701, 41⟩,
    ⟨175, false, 3327622042783605, 43⟩, ⟨177, false, 1411893378438069, 43⟩, ⟨179, true, 3500373451150851, 47⟩,
    ⟨181, true, 283931640701349, 41⟩]),
  ([9, 2, 2], [⟨183, true, 283931640701349, 41⟩, ⟨185, false, 3500373451150851, 47⟩,
    ⟨187, false, 1411893378438069, 43⟩, ⟨189, true, 3327622042783605, 43⟩, ⟨191, false, 1202759513207701, 41⟩,
    ⟨193, true, 582679422065553, 40⟩]),
  ([2, 3, 8], [⟨177, true, 6454369730002601, 42⟩, ⟨179, true, 3500373451150851, 42⟩,
    ⟨181, false, 5191892858538953, 42⟩]),
  ([2, 8, 3], [⟨182, true, 45045, 7⟩, ⟨184, true, 5079123596570099, 44⟩, ⟨186, false, 4563928604370025, 44⟩,
    ⟨188, false, 4040908538059161, 42⟩, ⟨190, false, 2948878799235727, 41⟩, ⟨192, false, 4944198847204931, 42⟩]),
  ([3, 2, 8], [⟨183, false, 5191892858538953, 42⟩, ⟨185, false, 3500373451150851, 42⟩,
    ⟨187, true, 6454369730002601, 42⟩]),
  ([3, 8, 2], [⟨183, true, 283931640701349, 41⟩, ⟨185, true, 1203253373833105, 42⟩,
    ⟨187, true, 8067962162503251, 46⟩, ⟨189, false, 7355796094574285, 44⟩, ⟨191, false, 1288670907008251, 40⟩,
    ⟨193, false, 1748038266196659, 40⟩]),
  ([8, 2, 3], [⟨182, true, 45045, 7⟩, ⟨184, false, 5079123596570099, 44⟩, ⟨186, false, 4563928604370025, 44⟩,
    ⟨188, true, 4040908538059161, 42⟩, ⟨190, false, 2948878799235727, 41⟩, ⟨192, true, 4944198847204931, 42⟩]),
  ([8, 3, 2], [⟨171, true, 1748038266196659, 40⟩, ⟨173, false, 1288670907008251, 40⟩,
    ⟨175, true, 7355796094574285, 44⟩, ⟨177, true, 8067962162503251, 46⟩, ⟨179, false, 1203253373833105, 42⟩,
    ⟨181, true, 283931640701349, 41⟩]),
  ([2, 4, 7], [⟨182, true, 6435, 2⟩, ⟨184, true, 5804712681794399, 43⟩, ⟨186, false, 4563928604370025, 41⟩,
    ⟨188, false, 2486712946497945, 40⟩]),
  ([2, 7, 4], [⟨173, true, 4123746902426403, 41⟩, ⟨175, true, 5254140067553061, 41⟩,
    ⟨177, true, 6454369730002601, 42⟩, ⟨181, false, 283931640701349, 38⟩]),
  ([4, 2, 7], [⟨182, true, 6435, 2⟩, ⟨184, false, 5804712681794399, 43⟩, ⟨186, false, 4563928604370025, 41⟩,
    ⟨188, true, 2486712946497945, 40⟩]),
  ([4, 7, 2], [⟨171, true, 1748038266196659, 39⟩, ⟨173, true, 1546405088409901, 40⟩,
    ⟨175, false, 8406624108084897, 46⟩, ⟨177, false, 1109344797344197, 41⟩, ⟨179, false, 1312640044181569, 43⟩,
    ⟨181, true, 283931640701349, 40⟩]),
  ([7, 2, 4], [⟨183, false, 283931640701349, 38⟩, ⟨187, true, 6454369730002601, 42⟩,
    ⟨189, false, 5254140067553061, 41⟩, ⟨191, true, 4123746902426403, 41⟩]),
  ([7, 4, 2], [⟨183, true, 283931640701349, 40⟩, ⟨185, true, 1312640044181569, 43⟩,
    ⟨187, false, 1109344797344197, 41⟩, ⟨189, true, 8406624108084897, 46⟩, ⟨191, true, 1546405088409901, 40⟩,
    ⟨193, false, 1748038266196659, 39⟩]),
  ([2, 5, 6], [⟨175, false, 1471159218914857, 39⟩, ⟨177, false, 6777088216502731, 41⟩,
    ⟨179, false, 4900522831611191, 43⟩, ⟨181, true, 283931640701349, 37⟩]),
  ([2, 6, 5], [⟨182, false, 45045, 5⟩, ⟨184, false, 8126597754512159, 43⟩, ⟨186, true, 6389500046118035, 42⟩,
    ⟨188, true, 3481398125097123, 40⟩, ⟨190, true, 5504573758573357, 41⟩]),
  ([5, 2, 6], [⟨183, true, 283931640701349, 37⟩, ⟨185, true, 4900522831611191, 43⟩,
    ⟨187, false, 6777088216502731, 41⟩, ⟨189, true, 1471159218914857, 39⟩]),
  ([5, 6, 2], [⟨183, true, 283931640701349, 40⟩, ⟨185, true, 6125653539513989, 44⟩,
    ⟨187, false, 1411893378438069, 42⟩, ⟨189, false, 7355796094574285, 43⟩, ⟨191, true, 1443311415849241, 41⟩,
    ⟨193, true, 4894507145350645, 40⟩]),
  ([6, 2, 5], [⟨182, false, 45045, 5⟩, ⟨184, true, 8126597754512159, 43⟩, ⟨186, true, 6389500046118035, 42⟩,
    ⟨188, false, 3481398125097123, 40⟩, ⟨190, true, 5504573758573357, 41⟩]),
  ([6, 5, 2], [⟨171, false, 4894507145350645, 40⟩, ⟨173, true, 1443311415849241, 41⟩,
    ⟨175, true, 7355796094574285, 43⟩, ⟨177, false, 1411893378438069, 42⟩, ⟨179, false, 6125653539513989, 44⟩,
    ⟨181, true, 283931640701349, 40⟩]),
  ([3, 3, 7], [⟨176, true, 828904315499315, 38⟩, ⟨180, false, 5804712681794399, 41⟩]),
  ([3, 7, 3], [⟨172, true, 6592265129606575, 41⟩, ⟨174, true, 1310612799660323, 39⟩,
    ⟨176, true, 2486712946497945, 42⟩, ⟨178, false, 6085238139160033, 43⟩, ⟨180, false, 6772164795426799, 43⟩]),
  ([7, 3, 3], [⟨172, true, 6592265129606575, 41⟩, ⟨174, false, 1310612799660323, 39⟩,
    ⟨176, true, 2486712946497945, 42⟩, ⟨178, true, 6085238139160033, 43⟩, ⟨180, false, 6772164795426799, 43⟩]),
  ([3, 4, 6], [⟨183, true, 283931640701349, 37⟩, ⟨185, true, 6125653539513989, 41⟩,
    ⟨187, false, 7530098018336367, 42⟩, ⟨189, false, 1225966015762381, 38⟩]),
  ([3, 6, 4], [⟨183, false, 283931640701349, 38⟩, ⟨185, false, 8167538052685319, 42⟩,
    ⟨189, true, 7355796094574285, 41⟩, ⟨191, true, 1202759513207701, 38⟩]),
  ([4, 3, 6], [⟨175, true, 1225966015762381, 38⟩, ⟨177, false, 7530098018336367, 42⟩,
    ⟨179, false, 6125653539513989, 41⟩, ⟨181, true, 283931640701349, 37⟩]),
  ([4, 6, 3], [⟨182, true, 45045, 6⟩, ⟨184, true, 6772164795426799, 45⟩, ⟨186, false, 5324583371765029, 42⟩,
    ⟨188, false, 1087936914092851, 40⟩, ⟨190, true, 4587144798811131, 41⟩, ⟨192, true, 5768231988405753, 40⟩]),
  ([6, 3, 4], [⟨173, true, 1202759513207701, 38⟩, ⟨175, false, 7355796094574285, 41⟩,
    ⟨179, true, 8167538052685319, 42⟩, ⟨181, false, 283931640701349, 38⟩]),
  ([6, 4, 3], [⟨182, true, 45045, 6⟩, ⟨184, false, 6772164795426799, 45⟩, ⟨186, false, 5324583371765029, 42⟩,
    ⟨188, true, 1087936914092851, 40⟩, ⟨190, true, 4587144798811131, 41⟩, ⟨192, false, 5768231988405753, 40⟩]),
  ([3, 5, 5], [⟨174, false, 5504573758573357, 40⟩, ⟨176, false, 3481398125097123, 40⟩,
    ⟨178, true, 6389500046118035, 42⟩, ⟨180, true, 6094948315884119, 41⟩]),
  ([5, 3, 5], [⟨174, true, 5504573758573357, 40⟩, ⟨176, false, 3481398125097123, 40⟩,
    ⟨178, false, 6389500046118035, 42⟩, ⟨180, true, 6094948315884119, 41⟩]),
  ([5, 5, 3], [⟨172, false, 865234798260863, 37⟩, ⟨176, true, 1087936914092851, 39⟩,
    ⟨180, false, 5079123596570099, 42⟩]),
  ([4, 4, 5], [⟨182, false, 135135, 6⟩, ⟨186, true, 7986875057647543, 41⟩, ⟨190, false, 860089649777087, 37⟩]),
  ([4, 5, 4], [⟨173, false, 7216557079246205, 40⟩, ⟨175, false, 7355796094574285, 42⟩,
    ⟨177, true, 1411893378438069, 39⟩, ⟨179, true, 6125653539513989, 42⟩, ⟨181, false, 851794922104047, 39⟩]),
  ([5, 4, 4], [⟨183, false, 851794922104047, 39⟩, ⟨185, false, 6125653539513989, 42⟩,
    ⟨187, true, 1411893378438069, 39⟩, ⟨189, true, 7355796094574285, 42⟩, ⟨191, false, 7216557079246205, 40⟩])]

/-- The rows of `ls` for the monomials of degree 14 and the entries of `cm` in these rows:
so3/_spherical_harmonics_lut.npz. -/
def shippedRows14 : List (List Nat × List ShippedEntry) := [
  ([0, 0, 14], [⟨210, false, 1, 0⟩]),
  ([0, 14, 0], [⟨210, true, 429, 11⟩, ⟨212, true, 5362163887043889, 54⟩, ⟨214, true, 5442802455374463, 54⟩,
    ⟨216, true, 2795973972608689, 53⟩, ⟨218, true, 2920299571589167, 53⟩, ⟨220, true, 6263344801620761, 54⟩,
    ⟨222, true, 3545920737902063, 53⟩, ⟨224, true, 4924327037025071, 53⟩]),
  ([14, 0, 0], [⟨210, true, 429, 11⟩, ⟨212, false, 5362163887043889, 54⟩, ⟨214, true, 5442802455374463, 54⟩,
    ⟨216, false, 2795973972608689, 53⟩, ⟨218, true, 2920299571589167, 53⟩, ⟨220, false, 6263344801620761, 54⟩,
    ⟨222, true, 3545920737902063, 53⟩, ⟨224, false, 4924327037025071, 53⟩]),
  ([0, 1, 13], [⟨209, false, 5768520456407433, 49⟩]),
  ([0, 13, 1], [⟨197, false, 3257136178579973, 50⟩, ⟨199, false, 7829181002025951, 51⟩,
    ⟨201, false, 4288219041600513, 50⟩, ⟨203, false, 4529995578993559, 50⟩, ⟨205, false, 4688990899554873, 50⟩,
    ⟨207, false, 4786688702680133, 50⟩, ⟨209, false, 2416694605272255, 49⟩]),
  ([1, 0, 13], [⟨211, false, 5768520456407433, 49⟩]),
  ([1, 13, 0], [⟨196, false, 4308786157396937, 49⟩, ⟨198, false, 5318881106853095, 50⟩,
    ⟨200, false, 7829181002025951, 51⟩, ⟨202, false, 2920299571589167, 50⟩, ⟨204, false, 2096980479456517, 50⟩,
    ⟨206, false, 5442802455374463, 52⟩, ⟨208, false, 5362163887043889, 53⟩]),
  ([13, 0, 1], [⟨211, false, 2416694605272255, 49⟩, ⟨213, true, 4786688702680133, 50⟩,
    ⟨215, false, 4688990899554873, 50⟩, ⟨217, true, 4529995578993559, 50⟩, ⟨219, false, 4288219041600513, 50⟩,
    ⟨221, true, 7829181002025951, 51⟩, ⟨223, false, 3257136178579973, 50⟩]),
  ([13, 1, 0], [⟨196, false, 4308786157396937, 49⟩, ⟨198, true, 5318881106853095, 50⟩,
    ⟨200, false, 7829181002025951, 51⟩, ⟨202, true, 2920299571589167, 50⟩, ⟨204, false, 2096980479456517, 50⟩,
    ⟨206, true, 5442802455374463, 52⟩, ⟨208, false, 5362163887043889, 53⟩]),
  ([0, 2, 12], [⟨210, true, 91, 1⟩, ⟨212, true, 649959259035623, 44⟩]),
  ([0, 12, 2], [⟨210, false, 21021, 10⟩, ⟨212, false, 4021622915282917, 47⟩, ⟨214, false, 7653940952870339, 48⟩,
    ⟨216, false, 6989934931521723, 48⟩, ⟨218, false, 188222433325083, 43⟩, ⟨220, false, 2348754300607785, 47⟩,
    ⟨222, false, 5762121199090853, 49⟩]),
  ([2, 0, 12], [⟨210, true, 91, 1⟩, ⟨212, false, 649959259035623, 44⟩]),
  ([2, 12, 0], [⟨210, true, 3003, 11⟩, ⟨212, true, 3351352429402431, 51⟩, ⟨214, false, 5442802455374463, 54⟩,
    ⟨216, false, 7688928424673895, 51⟩, ⟨218, false, 4562968080608073, 49⟩, ⟨220, false, 8416369577177897, 49⟩,
    ⟨222, false, 3601325749431783, 47⟩, ⟨224, false, 7001777505770023, 47⟩]),
  ([12, 0, 2], [⟨210, false, 21021, 10⟩, ⟨212, true, 4021622915282917, 47⟩, ⟨214, false, 7653940952870339, 48⟩,
    ⟨216, true, 6989934931521723, 48⟩, ⟨218, false, 188222433325083, 43⟩, ⟨220, true, 2348754300607785, 47⟩,
    ⟨222, false, 5762121199090853, 49⟩]),
  ([12, 2, 0], [⟨210, true, 3003, 11⟩, ⟨212, false, 3351352429402431, 51⟩, ⟨214, false, 5442802455374463, 54⟩,
    ⟨216, true, 7688928424673895, 51⟩, ⟨218, false, 4562968080608073, 49⟩, ⟨220, true, 8416369577177897, 49⟩,
    ⟨222, false, 3601325749431783, 47⟩, ⟨224, true, 7001777505770023, 47⟩]),
  ([0, 3, 11], [⟨207, true, 6188850039828859, 46⟩, ⟨209, true, 7030384306246559, 45⟩]),
  ([0, 11, 3], [⟨199, true, 7829181002025951, 48⟩, ⟨201, true, 1965433727400235, 45⟩,
    ⟨203, true, 5662494473741949, 46⟩, ⟨205, true, 3516743174666155, 45⟩, ⟨207, true, 997226813058361, 43⟩,
    ⟨209, true, 2114607779613223, 44⟩]),
  ([3, 0, 11], [⟨211, true, 7030384306246559, 45⟩, ⟨213, false, 6188850039828859, 46⟩]),
  ([3, 11, 0], [⟨196, true, 7001777505770023, 45⟩, ⟨198, true, 5762121199090853, 46⟩,
    ⟨200, true, 4893238126266219, 47⟩, ⟨202, true, 2920299571589167, 48⟩, ⟨204, false, 2795973972608689, 51⟩,
    ⟨206, false, 5442802455374463, 50⟩, ⟨208, false, 4021622915282917, 50⟩]),
  ([11, 0, 3], [⟨211, true, 2114607779613223, 44⟩, ⟨213, false, 997226813058361, 43⟩,
    ⟨215, true, 3516743174666155, 45⟩, ⟨217, false, 5662494473741949, 46⟩, ⟨219, true, 1965433727400235, 45⟩,
    ⟨221, false, 7829181002025951, 48⟩]),
  ([11, 3, 0], [⟨196, true, 7001777505770023, 45⟩, ⟨198, false, 5762121199090853, 46⟩,
    ⟨200, true, 4893238126266219, 47⟩, ⟨202, false, 2920299571589167, 48⟩, ⟨204, false, 2795973972608689, 51⟩,
    ⟨206, true, 5442802455374463, 50⟩, ⟨208, false, 4021622915282917, 50⟩]),
  ([0, 4, 10], [⟨210, false, 3003, 3⟩, ⟨212, false, 1787387962347963, 42⟩, ⟨214, false, 5442802455374463, 45⟩]),
  ([0, 10, 4], [⟨210, true, 63063, 8⟩, ⟨212, true, 2932433375727127, 43⟩, ⟨214, true, 637828412739195, 41⟩,
    ⟨216, true, 3931838398980969, 44⟩, ⟨218, true, 313704055541805, 41⟩, ⟨220, true, 4306049551114273, 46⟩]),
  ([4, 0, 10], [⟨210, false, 3003, 3⟩, ⟨212, true, 1787387962347963, 42⟩, ⟨214, false, 5442802455374463, 45⟩]),
  ([4, 10, 0], [⟨210, true, 9009, 11⟩, ⟨212, true, 754054296615547, 48⟩, ⟨214, false, 6463327915757175, 50⟩,
    ⟨216, false, 425949159889605, 45⟩, ⟨218, false, 8030823821870209, 51⟩, ⟨220, true, 5920818132782125, 47⟩,
    ⟨222, true, 2971093743281221, 44⟩, ⟨224, true, 4813722035216891, 43⟩]),
  ([10, 0, 4], [⟨210, true, 63063, 8⟩, ⟨212, false, 2932433375727127, 43⟩, ⟨214, true, 637828412739195, 41⟩,
    ⟨216, false, 3931838398980969, 44⟩, ⟨218, true, 313704055541805, 41⟩, ⟨220, false, 4306049551114273, 46⟩]),
  ([10, 4, 0], [⟨210, true, 9009, 11⟩, ⟨212, false, 754054296615547, 48⟩, ⟨214, false, 6463327915757175, 50⟩,
    ⟨216, true, 425949159889605, 45⟩, ⟨218, false, 8030823821870209, 51⟩, ⟨220, false, 5920818132782125, 47⟩,
    ⟨222, true, 2971093743281221, 44⟩, ⟨224, false, 4813722035216891, 43⟩]),
  ([0, 5, 9], [⟨205, false, 7502385439287797, 45⟩, ⟨207, false, 5318543002977925, 43⟩,
    ⟨209, false, 8055648684240849, 43⟩]),
  ([0, 9, 5], [⟨201, false, 1965433727400235, 44⟩, ⟨203, false, 2548122513183877, 43⟩,
    ⟨205, false, 8440183619198771, 44⟩, ⟨207, false, 2792235076563411, 42⟩, ⟨209, false, 6343823338839669, 43⟩]),
  ([5, 0, 9], [⟨211, false, 8055648684240849, 43⟩, ⟨213, true, 5318543002977925, 43⟩,
    ⟨215, false, 7502385439287797, 45⟩]),
  ([5, 9, 0], [⟨196, false, 4813722035216891, 42⟩, ⟨198, false, 3961458324374961, 44⟩,
    ⟨200, false, 4306049551114273, 49⟩, ⟨202, true, 8030823821870209, 48⟩, ⟨204, true, 6640438184945637, 49⟩,
    ⟨206, false, 6803503069218079, 50⟩, ⟨208, false, 2513514322051823, 48⟩]),
  ([9, 0, 5], [⟨211, false, 6343823338839669, 43⟩, ⟨213, true, 2792235076563411, 42⟩,
    ⟨215, false, 8440183619198771, 44⟩, ⟨217, true, 2548122513183877, 43⟩, ⟨219, false, 1965433727400235, 44⟩]),
  ([9, 5, 0], [⟨196, false, 4813722035216891, 42⟩, ⟨198, true, 3961458324374961, 44⟩,
    ⟨200, false, 4306049551114273, 49⟩, ⟨202, false, 8030823821870209, 48⟩, ⟨204, true, 6640438184945637, 49⟩,
    ⟨206, true, 6803503069218079, 50⟩, ⟨208, false, 2513514322051823, 48⟩]),
  ([0, 6, 8], [⟨210, true, 15015, 4⟩, ⟨212, true, 2513514322051823, 41⟩, ⟨214, true, 6123152762296271, 43⟩,
    ⟨216, true, 2096980479456517, 43⟩]),
  ([0, 8, 6], [⟨210, false, 105105, 7⟩, ⟨212, false, 4691893401163403, 42⟩, ⟨214, false, 7143678222678983, 43⟩,
    ⟨216, false, 2096980479456517, 42⟩, ⟨218, false, 188222433325083, 40⟩]),
  ([6, 0, 8], [⟨210, true, 15015, 4⟩, ⟨212, false, 2513514322051823, 41⟩, ⟨214, true, 6123152762296271, 43⟩,
    ⟨216, false, 2096980479456517, 43⟩]),
  ([6, 8, 0], [⟨210, true, 15015, 11⟩, ⟨212, true, 3351352429402431, 51⟩, ⟨214, false, 7653940952870339, 49⟩,
    ⟨216, false, 4718206078777163, 49⟩, ⟨218, true, 564667299975249, 44⟩, ⟨220, true, 4036921454169631, 46⟩,
    ⟨222, false, 2971093743281221, 44⟩, ⟨224, false, 902572881603167, 39⟩]),
  ([8, 0, 6], [⟨210, false, 105105, 7⟩, ⟨212, true, 4691893401163403, 42⟩, ⟨214, false, 7143678222678983, 43⟩,
    ⟨216, true, 2096980479456517, 42⟩, ⟨218, false, 188222433325083, 40⟩]),
  ([8, 6, 0], [⟨210, true, 15015, 11⟩, ⟨212, false, 3351352429402431, 51⟩, ⟨214, false, 7653940952870339, 49⟩,
    ⟨216, true, 4718206078777163, 49⟩, ⟨218, true, 564667299975249, 44⟩, ⟨220, false, 4036921454169631, 46⟩,
    ⟨222, false, 2971093743281221, 44⟩, ⟨224, true, 902572881603167, 39⟩]),
  ([0, 7, 7], [⟨203, true, 7765706706846101, 45⟩, ⟨205, true, 703348634933231, 40⟩,
    ⟨207, true, 4786688702680133, 42⟩, ⟨209, true, 6041736513180637, 42⟩]),
  ([7, 0, 7], [⟨211, true, 6041736513180637, 42⟩, ⟨213, false, 4786688702680133, 42⟩,
    ⟨215, true, 703348634933231, 40⟩, ⟨217, false, 7765706706846101, 45⟩]),
  ([7, 7, 0], [⟨196, true, 4126047458757335, 41⟩, ⟨200, false, 6459074326671409, 46⟩,
    ⟨204, true, 6290941438369551, 48⟩, ⟨208, false, 3351352429402431, 48⟩]),
  ([1, 1, 12], [⟨208, false, 649959259035623, 43⟩]),
  ([1, 12, 1], [⟨211, false, 2416694605272255, 49⟩, ⟨213, false, 7180033054020199, 49⟩,
    ⟨215, false, 5861238624443591, 48⟩, ⟨217, false, 990936532904841, 45⟩, ⟨219, false, 4824246421800577, 47⟩,
    ⟨221, false, 5382561938892841, 47⟩, ⟨223, false, 661605786274057, 44⟩]),
  ([12, 1, 1], [⟨197, false, 661605786274057, 44⟩, ⟨199, true, 5382561938892841, 47⟩,
    ⟨201, false, 4824246421800577, 47⟩, ⟨203, true, 990936532904841, 45⟩, ⟨205, false, 5861238624443591, 48⟩,
    ⟨207, true, 7180033054020199, 49⟩, ⟨209, false, 2416694605272255, 49⟩]),
  ([1, 2, 11], [⟨211, true, 7030384306246559, 45⟩, ⟨213, true, 1160409382467911, 42⟩]),
  ([1, 11, 2], [⟨198, true, 8643181798636279, 46⟩, ⟨200, true, 5871885751519463, 45⟩,
    ⟨202, true, 188222433325083, 40⟩, ⟨204, true, 1310612799660323, 43⟩, ⟨206, true, 7653940952870339, 46⟩,
    ⟨208, true, 4021622915282917, 46⟩]),
  ([2, 1, 11], [⟨207, false, 1160409382467911, 42⟩, ⟨209, true, 7030384306246559, 45⟩]),
  ([2, 11, 1], [⟨197, true, 7939269435288685, 45⟩, ⟨199, true, 1651467867614849, 43⟩,
    ⟨201, true, 4556232731700545, 45⟩, ⟨203, true, 2548122513183877, 45⟩, ⟨205, true, 3516743174666155, 47⟩,
    ⟨207, false, 4786688702680133, 49⟩, ⟨209, false, 1812520953954191, 46⟩]),
  ([11, 1, 2], [⟨198, false, 8643181798636279, 46⟩, ⟨200, true, 5871885751519463, 45⟩,
    ⟨202, false, 188222433325083, 40⟩, ⟨204, true, 1310612799660323, 43⟩, ⟨206, false, 7653940952870339, 46⟩,
    ⟨208, true, 4021622915282917, 46⟩]),
  ([11, 2, 1], [⟨211, false, 1812520953954191, 46⟩, ⟨213, true, 4786688702680133, 49⟩,
    ⟨215, true, 3516743174666155, 47⟩, ⟨217, false, 2548122513183877, 45⟩, ⟨219, true, 4556232731700545, 45⟩,
    ⟨221, false, 1651467867614849, 43⟩, ⟨223, true, 7939269435288685, 45⟩]),
  ([1, 3, 10], [⟨206, true, 5442802455374463, 43⟩, ⟨208, true, 1787387962347963, 41⟩]),
  ([1, 10, 3], [⟨211, true, 2114607779613223, 44⟩, ⟨213, true, 2991680439175083, 43⟩,
    ⟨215, true, 8791857936665387, 44⟩, ⟨217, true, 4954682664524205, 43⟩, ⟨219, true, 4422225886650529, 43⟩,
    ⟨221, true, 5382561938892841, 44⟩]),
  ([3, 1, 10], [⟨206, false, 5442802455374463, 43⟩, ⟨208, true, 1787387962347963, 41⟩]),
  ([3, 10, 1], [⟨211, false, 1812520953954191, 46⟩, ⟨213, false, 8376705229690233, 47⟩,
    ⟨215, false, 5861238624443591, 47⟩, ⟨217, true, 990936532904841, 44⟩, ⟨219, true, 4422225886650529, 44⟩,
    ⟨221, true, 1177435424132809, 41⟩, ⟨223, true, 1819415912253657, 41⟩]),
  ([10, 1, 3], [⟨199, false, 5382561938892841, 44⟩, ⟨201, true, 4422225886650529, 43⟩,
    ⟨203, false, 4954682664524205, 43⟩, ⟨205, true, 8791857936665387, 44⟩, ⟨207, false, 2991680439175083, 43⟩,
    ⟨209, true, 2114607779613223, 44⟩]),
  ([10, 3, 1], [⟨197, true, 1819415912253657, 41⟩, ⟨199, false, 1177435424132809, 41⟩,
    ⟨201, true, 4422225886650529, 44⟩, ⟨203, false, 990936532904841, 44⟩, ⟨205, false, 5861238624443591, 47⟩,
    ⟨207, true, 8376705229690233, 47⟩, ⟨209, false, 1812520953954191, 46⟩]),
  ([1, 4, 9], [⟨211, false, 8055648684240849, 43⟩, ⟨213, false, 997226813058361, 39⟩,
    ⟨215, false, 4688990899554873, 42⟩]),
  ([1, 9, 4], [⟨200, false, 5382561938892841, 43⟩, ⟨202, false, 313704055541805, 38⟩,
    ⟨204, false, 2948878799235727, 41⟩, ⟨206, false, 637828412739195, 39⟩, ⟨208, false, 2932433375727127, 42⟩]),
  ([4, 1, 9], [⟨205, false, 4688990899554873, 42⟩, ⟨207, true, 997226813058361, 39⟩,
    ⟨209, false, 8055648684240849, 43⟩]),
  ([4, 9, 1], [⟨197, false, 2274269890317071, 40⟩, ⟨199, false, 131410203586251, 37⟩,
    ⟨201, false, 3685188238875441, 44⟩, ⟨203, true, 1769529523044359, 44⟩, ⟨205, true, 8498796005443207, 46⟩,
    ⟨207, true, 2991680439175083, 47⟩, ⟨209, false, 2265651192442739, 45⟩]),
  ([9, 1, 4], [⟨200, false, 5382561938892841, 43⟩, ⟨202, true, 313704055541805, 38⟩,
    ⟨204, false, 2948878799235727, 41⟩, ⟨206, true, 637828412739195, 39⟩, ⟨208, false, 2932433375727127, 42⟩]),
  ([9, 4, 1], [⟨211, false, 2265651192442739, 45⟩, ⟨213, false, 2991680439175083, 47⟩,
    ⟨215, true, 8498796005443207, 46⟩, ⟨217, false, 1769529523044359, 44⟩, ⟨219, false, 3685188238875441, 44⟩,
    ⟨221, true, 131410203586251, 37⟩, ⟨223, false, 2274269890317071, 40⟩]),
  ([1, 5, 8], [⟨204, false, 6290941438369551, 42⟩, ⟨206, false, 6123152762296271, 41⟩,
    ⟨208, false, 2513514322051823, 40⟩]),
  ([1, 8, 5], [⟨211, false, 6343823338839669, 43⟩, ⟨213, false, 8376705229690233, 42⟩,
    ⟨215, false, 41211834078119, 34⟩, ⟨217, false, 8918428796143569, 42⟩, ⟨219, false, 4422225886650529, 42⟩]),
  ([5, 1, 8], [⟨204, false, 6290941438369551, 42⟩, ⟨206, true, 6123152762296271, 41⟩,
    ⟨208, false, 2513514322051823, 40⟩]),
  ([5, 8, 1], [⟨211, false, 2265651192442739, 45⟩, ⟨213, false, 1869800274484427, 44⟩,
    ⟨215, true, 41211834078119, 40⟩, ⟨217, true, 8918428796143569, 45⟩, ⟨219, true, 4422225886650529, 45⟩,
    ⟨221, false, 4541536635940835, 42⟩, ⟨223, false, 511710725321341, 37⟩]),
  ([8, 1, 5], [⟨201, false, 4422225886650529, 42⟩, ⟨203, true, 8918428796143569, 42⟩,
    ⟨205, false, 41211834078119, 34⟩, ⟨207, true, 8376705229690233, 42⟩, ⟨209, false, 6343823338839669, 43⟩]),
  ([8, 5, 1], [⟨197, false, 511710725321341, 37⟩, ⟨199, true, 4541536635940835, 42⟩,
    ⟨201, true, 4422225886650529, 45⟩, ⟨203, false, 8918428796143569, 45⟩, ⟨205, true, 41211834078119, 40⟩,
    ⟨207, true, 1869800274484427, 44⟩, ⟨209, false, 2265651192442739, 45⟩]),
  ([1, 6, 7], [⟨211, true, 6041736513180637, 42⟩, ⟨213, true, 7180033054020199, 41⟩,
    ⟨215, true, 3516743174666155, 40⟩, ⟨217, true, 3397496684245169, 41⟩]),
  ([1, 7, 6], [⟨202, true, 188222433325083, 37⟩, ⟨204, true, 6290941438369551, 41⟩,
    ⟨206, true, 7143678222678983, 41⟩, ⟨208, true, 4691893401163403, 41⟩]),
  ([6, 1, 7], [⟨203, false, 3397496684245169, 41⟩, ⟨205, true, 3516743174666155, 40⟩,
    ⟨207, false, 7180033054020199, 41⟩, ⟨209, true, 6041736513180637, 42⟩]),
  ([6, 7, 1], [⟨197, true, 5458247736760971, 40⟩, ⟨199, true, 4036921454169631, 43⟩,
    ⟨201, false, 4422225886650529, 43⟩, ⟨203, false, 2548122513183877, 44⟩, ⟨205, true, 41211834078119, 38⟩,
    ⟨207, true, 2991680439175083, 45⟩, ⟨209, false, 6041736513180637, 46⟩]),
  ([7, 1, 6], [⟨202, false, 188222433325083, 37⟩, ⟨204, true, 6290941438369551, 41⟩,
    ⟨206, false, 7143678222678983, 41⟩, ⟨208, true, 4691893401163403, 41⟩]),
  ([7, 6, 1], [⟨211, false, 6041736513180637, 46⟩, ⟨213, false, 2991680439175083, 45⟩,
    ⟨215, true, 41211834078119, 38⟩, ⟨217, true, 2548122513183877, 44⟩, ⟨219, false, 4422225886650529, 43⟩,
    ⟨221, false, 4036921454169631, 43⟩, ⟨223, true, 5458247736760971, 40⟩]),
  ([2, 2, 10], [⟨210, false, 3003, 2⟩, ⟨214, true, 8164203683061695, 43⟩]),
  ([2, 10, 2], [⟨210, false, 63063, 9⟩, ⟨212, false, 4021622915282917, 45⟩, ⟨214, true, 7653940952870339, 47⟩,
    ⟨216, true, 1310612799660323, 42⟩, ⟨218, true, 2446891633226079, 42⟩, ⟨220, true, 6459074326671409, 43⟩,
    ⟨222, true, 2971093743281221, 42⟩]),
  ([10, 2, 2], [⟨210, false, 63063, 9⟩, ⟨212, true, 4021622915282917, 45⟩, ⟨214, true, 7653940952870339, 47⟩,
    ⟨216, false, 1310612799660323, 42⟩, ⟨218, true, 2446891633226079, 42⟩, ⟨220, false, 6459074326671409, 43⟩,
    ⟨222, true, 2971093743281221, 42⟩]),
  ([2, 3, 9], [⟨205, true, 4688990899554873, 41⟩, ⟨207, true, 5318543002977925, 42⟩,
    ⟨209, false, 8055648684240849, 42⟩]),
  ([2, 9, 3], [⟨199, false, 1682050605904013, 40⟩, ⟨201, false, 2149693139344007, 40⟩,
    ⟨203, false, 1681053046892141, 40⟩, ⟨205, false, 6154300555665771, 43⟩, ⟨207, true, 997226813058361, 43⟩,
    ⟨209, true, 5286519449033057, 43⟩]),
  ([3, 2, 9], [⟨211, false, 8055648684240849, 42⟩, ⟨213, false, 5318543002977925, 42⟩,
    ⟨215, true, 4688990899554873, 41⟩]),
  ([3, 9, 2], [⟨198, false, 2475911452734351, 40⟩, ⟨200, false, 4036921454169631, 41⟩,
    ⟨202, false, 7528897333003321, 43⟩, ⟨204, false, 6989934931521723, 47⟩, ⟨206, true, 2870227857326377, 43⟩,
    ⟨208, true, 2513514322051823, 43⟩]),
  ([9, 2, 3], [⟨211, true, 5286519449033057, 43⟩, ⟨213, false, 997226813058361, 43⟩,
    ⟨215, false, 6154300555665771, 43⟩, ⟨217, true, 1681053046892141, 40⟩, ⟨219, false, 2149693139344007, 40⟩,
    ⟨221, true, 1682050605904013, 40⟩]),
  ([9, 3, 2], [⟨198, true, 2475911452734351, 40⟩, ⟨200, false, 4036921454169631, 41⟩,
    ⟨202, true, 7528897333003321, 43⟩, ⟨204, false, 6989934931521723, 47⟩, ⟨206, false, 2870227857326377, 43⟩,
    ⟨208, true, 2513514322051823, 43⟩]),
  ([2, 4, 8], [⟨210, true, 45045, 4⟩, ⟨212, true, 2513514322051823, 41⟩, ⟨214, false, 7653940952870339, 41⟩,
    ⟨216, false, 3931838398980969, 40⟩]),
  ([2, 8, 4], [⟨210, true, 315315, 8⟩, ⟨212, true, 8797300127181381, 43⟩, ⟨214, false, 7653940952870339, 43⟩,
    ⟨216, false, 6389237398344075, 41⟩, ⟨218, false, 132343898431699, 35⟩, ⟨220, false, 3027691090627223, 40⟩]),
  ([4, 2, 8], [⟨210, true, 45045, 4⟩, ⟨212, false, 2513514322051823, 41⟩, ⟨214, false, 7653940952870339, 41⟩,
    ⟨216, true, 3931838398980969, 40⟩]),
  ([4, 8, 2], [⟨210, false, 315315, 10⟩, ⟨212, false, 2513514322051823, 44⟩, ⟨214, true, 8132312262424735, 44⟩,
    ⟨216, true, 2948878799235727, 42⟩, ⟨218, false, 2823336499876245, 43⟩, ⟨220, false, 3027691090627223, 40⟩,
    ⟨222, false, 5570800768652289, 40⟩]),
  ([8, 2, 4], [⟨210, true, 315315, 8⟩, ⟨212, false, 8797300127181381, 43⟩, ⟨214, false, 7653940952870339, 43⟩,
    ⟨216, true, 6389237398344075, 41⟩, ⟨218, false, 132343898431699, 35⟩, ⟨220, true, 3027691090627223, 40⟩]),
  ([8, 4, 2], [⟨210, false, 315315, 10⟩, ⟨212, true, 2513514322051823, 44⟩, ⟨214, true, 8132312262424735, 44⟩,
    ⟨216, false, 2948878799235727, 42⟩, ⟨218, false, 2823336499876245, 43⟩, ⟨220, true, 3027691090627223, 40⟩,
    ⟨222, false, 5570800768652289, 40⟩]),
  ([2, 5, 7], [⟨203, false, 2548122513183877, 39⟩, ⟨205, false, 6330137714399079, 40⟩,
    ⟨207, false, 4786688702680133, 42⟩, ⟨209, true, 2265651192442739, 39⟩]),
  ([2, 7, 5], [⟨201, true, 4422225886650529, 40⟩, ⟨203, true, 1592576570739923, 38⟩,
    ⟨205, true, 8440183619198771, 41⟩, ⟨209, false, 6343823338839669, 41⟩]),
  ([5, 2, 7], [⟨211, true, 2265651192442739, 39⟩, ⟨213, true, 4786688702680133, 42⟩,
    ⟨215, false, 6330137714399079, 40⟩, ⟨217, true, 2548122513183877, 39⟩]),
  ([5, 7, 2], [⟨198, true, 8913281229843663, 40⟩, ⟨200, true, 4844305745003557, 41⟩,
    ⟨202, false, 564667299975249, 39⟩, ⟨204, false, 3931838398980969, 42⟩, ⟨206, true, 7653940952870339, 45⟩,
    ⟨208, true, 2513514322051823, 42⟩]),
  ([7, 2, 5], [⟨211, false, 6343823338839669, 41⟩, ⟨215, true, 8440183619198771, 41⟩,
    ⟨217, false, 1592576570739923, 38⟩, ⟨219, true, 4422225886650529, 40⟩]),
  ([7, 5, 2], [⟨198, false, 8913281229843663, 40⟩, ⟨200, true, 4844305745003557, 41⟩,
    ⟨202, true, 564667299975249, 39⟩, ⟨204, false, 3931838398980969, 42⟩, ⟨206, false, 7653940952870339, 45⟩,
    ⟨208, true, 2513514322051823, 42⟩]),
  ([2, 6, 6], [⟨210, false, 105105, 5⟩, ⟨212, false, 4691893401163403, 41⟩, ⟨214, true, 7143678222678983, 41⟩,
    ⟨216, true, 7339431678097809, 40⟩, ⟨218, true, 1317557033275581, 38⟩]),
  ([6, 2, 6], [⟨210, false, 105105, 5⟩, ⟨212, true, 4691893401163403, 41⟩, ⟨214, true, 7143678222678983, 41⟩,
    ⟨216, false, 7339431678097809, 40⟩, ⟨218, true, 1317557033275581, 38⟩]),
  ([6, 6, 2], [⟨210, false, 105105, 8⟩, ⟨214, true, 6697198333761547, 43⟩, ⟨218, false, 7905342199653487, 42⟩,
    ⟨222, true, 5199414050742137, 39⟩]),
  ([3, 3, 8], [⟨204, true, 1310612799660323, 38⟩, ⟨208, false, 2513514322051823, 39⟩]),
  ([3, 8, 3], [⟨211, true, 5286519449033057, 43⟩, ⟨213, true, 2742373735910493, 41⟩,
    ⟨215, true, 8791857936665387, 44⟩, ⟨217, false, 1858005999196577, 40⟩, ⟨219, false, 4606485298594301, 40⟩,
    ⟨221, false, 5046151817712039, 40⟩]),
  ([8, 3, 3], [⟨199, true, 5046151817712039, 40⟩, ⟨201, false, 4606485298594301, 40⟩,
    ⟨203, true, 1858005999196577, 40⟩, ⟨205, true, 8791857936665387, 44⟩, ⟨207, false, 2742373735910493, 41⟩,
    ⟨209, true, 5286519449033057, 43⟩]),
  ([3, 4, 7], [⟨211, true, 2265651192442739, 39⟩, ⟨213, true, 2991680439175083, 39⟩,
    ⟨215, false, 3516743174666155, 40⟩, ⟨217, false, 8493741710612923, 40⟩]),
  ([3, 7, 4], [⟨200, true, 4036921454169631, 39⟩, ⟨202, true, 7528897333003321, 40⟩,
    ⟨204, true, 3931838398980969, 41⟩, ⟨206, false, 637828412739195, 38⟩, ⟨208, false, 2932433375727127, 40⟩]),
  ([4, 3, 7], [⟨203, true, 8493741710612923, 40⟩, ⟨205, false, 3516743174666155, 40⟩,
    ⟨207, false, 2991680439175083, 39⟩, ⟨209, true, 2265651192442739, 39⟩]),
  ([4, 7, 3], [⟨199, true, 5046151817712039, 39⟩, ⟨201, true, 5527782358313161, 40⟩,
    ⟨203, false, 8493741710612923, 44⟩, ⟨205, false, 4835521865165963, 41⟩, ⟨207, false, 2991680439175083, 42⟩,
    ⟨209, true, 5286519449033057, 42⟩]),
  ([7, 3, 4], [⟨200, true, 4036921454169631, 39⟩, ⟨202, false, 7528897333003321, 40⟩,
    ⟨204, true, 3931838398980969, 41⟩, ⟨206, true, 637828412739195, 38⟩, ⟨208, false, 2932433375727127, 40⟩]),
  ([7, 4, 3], [⟨211, true, 5286519449033057, 42⟩, ⟨213, true, 2991680439175083, 42⟩,
    ⟨215, false, 4835521865165963, 41⟩, ⟨217, true, 8493741710612923, 44⟩, ⟨219, true, 5527782358313161, 40⟩,
    ⟨221, false, 5046151817712039, 39⟩]),
  ([3, 5, 6], [⟨202, false, 1317557033275581, 37⟩, ⟨204, false, 7339431678097809, 40⟩,
    ⟨206, true, 7143678222678983, 41⟩, ⟨208, true, 7037840101745105, 40⟩]),
  ([3, 6, 5], [⟨211, false, 6343823338839669, 41⟩, ⟨213, false, 2792235076563411, 39⟩,
    ⟨217, true, 8918428796143569, 40⟩, ⟨219, true, 5159263534425617, 39⟩]),
  ([5, 3, 6], [⟨202, true, 1317557033275581, 37⟩, ⟨204, false, 7339431678097809, 40⟩,
    ⟨206, false, 7143678222678983, 41⟩, ⟨208, true, 7037840101745105, 40⟩]),
  ([5, 6, 3], [⟨211, true, 5286519449033057, 42⟩, ⟨213, true, 6980587691408527, 42⟩,
    ⟨215, false, 6154300555665771, 42⟩, ⟨217, false, 1858005999196577, 39⟩, ⟨219, true, 5159263534425617, 41⟩,
    ⟨221, true, 3532306272398427, 38⟩]),
  ([6, 3, 5], [⟨201, true, 5159263534425617, 39⟩, ⟨203, false, 8918428796143569, 40⟩,
    ⟨207, true, 2792235076563411, 39⟩, ⟨209, false, 6343823338839669, 41⟩]),
  ([6, 5, 3], [⟨199, false, 3532306272398427, 38⟩, ⟨201, true, 5159263534425617, 41⟩,
    ⟨203, true, 1858005999196577, 39⟩, ⟨205, false, 6154300555665771, 42⟩, ⟨207, false, 6980587691408527, 42⟩,
    ⟨209, true, 5286519449033057, 42⟩]),
  ([4, 4, 6], [⟨210, false, 315315, 6⟩, ⟨214, true, 8929597778348729, 40⟩, ⟨218, false, 3293892583188953, 38⟩]),
  ([4, 6, 4], [⟨210, true, 315315, 7⟩, ⟨212, true, 2932433375727127, 42⟩, ⟨214, false, 8929597778348729, 41⟩,
    ⟨216, false, 860089649777087, 38⟩, ⟨218, true, 3293892583188953, 39⟩, ⟨220, true, 3532306272398427, 38⟩]),
  ([6, 4, 4], [⟨210, true, 315315, 7⟩, ⟨212, false, 2932433375727127, 42⟩, ⟨214, false, 8929597778348729, 41⟩,
    ⟨216, true, 860089649777087, 38⟩, ⟨218, true, 3293892583188953, 39⟩, ⟨220, false, 3532306272398427, 38⟩]),
  ([4, 5, 5], [⟨201, false, 3869447650819213, 38⟩, ⟨203, false, 8918428796143569, 41⟩,
    ⟨205, true, 7385160666798925, 40⟩, ⟨207, true, 8376705229690233, 41⟩, ⟨209, false, 594733438016219, 37⟩]),
  ([5, 4, 5], [⟨211, false, 594733438016219, 37⟩, ⟨213, false, 8376705229690233, 41⟩,
    ⟨215, true, 7385160666798925, 40⟩, ⟨217, true, 8918428796143569, 41⟩, ⟨219, false, 3869447650819213, 38⟩]),
  ([5, 5, 4], [⟨200, false, 8477535053756225, 39⟩, ⟨204, true, 860089649777087, 37⟩,
    ⟨208, false, 8797300127181381, 41⟩])]

/-- The rows of `ls` for the monomials of degree 15 and the entries of `cm` in these rows:
so3/_spherical_harmonics_lut.npz. -/
def shippedRows15 : List (List Nat × List ShippedEntry) := [
  ([0, 0, 15], [⟨240, false, 1, 0⟩]),
  ([0, 15, 0], [⟨225, true, 1210389835841215, 51⟩, ⟨227, true, 3482025040660687, 53⟩,
    ⟨229, true, 3070857438829249, 53⟩, ⟨231, true, 1429406347200171, 52⟩, ⟨233, true, 5463380231814691, 54⟩,
    ⟨235, true, 165780863099863, 49⟩, ⟨237, true, 1302771653234567, 52⟩, ⟨239, true, 645888801528119, 51⟩]),
  ([15, 0, 0], [⟨241, true, 645888801528119, 51⟩, ⟨243, false, 1302771653234567, 52⟩,
    ⟨245, true, 165780863099863, 49⟩, ⟨247, false, 5463380231814691, 54⟩, ⟨249, true, 1429406347200171, 52⟩,
    ⟨251, false, 3070857438829249, 53⟩, ⟨253, true, 3482025040660687, 53⟩, ⟨255, false, 1210389835841215, 51⟩]),
  ([0, 1, 14], [⟨239, false, 6166807764706703, 49⟩]),
  ([0, 14, 1], [⟨240, true, 6435, 11⟩, ⟨242, true, 4982143561198943, 50⟩, ⟨244, true, 4917855144442469, 50⟩,
    ⟨246, true, 4804785888977139, 50⟩, ⟨248, true, 1157951486107833, 48⟩, ⟨250, true, 2188322616084993, 49⟩,
    ⟨252, true, 3989160830139821, 50⟩, ⟨254, true, 6629578164652085, 51⟩]),
  ([1, 0, 14], [⟨241, false, 6166807764706703, 49⟩]),
  ([1, 14, 0], [⟨241, true, 645888801528119, 51⟩, ⟨243, true, 3908314959703701, 52⟩,
    ⟨245, true, 828904315499315, 49⟩, ⟨247, true, 4780457702837855, 51⟩, ⟨249, true, 6432328562400769, 51⟩,
    ⟨251, true, 4222428978390217, 50⟩, ⟨253, true, 353643168192101, 46⟩, ⟨255, true, 4538961884404557, 49⟩]),
  ([14, 0, 1], [⟨240, true, 6435, 11⟩, ⟨242, false, 4982143561198943, 50⟩, ⟨244, true, 4917855144442469, 50⟩,
    ⟨246, false, 4804785888977139, 50⟩, ⟨248, true, 1157951486107833, 48⟩, ⟨250, false, 2188322616084993, 49⟩,
    ⟨252, true, 3989160830139821, 50⟩, ⟨254, false, 6629578164652085, 51⟩]),
  ([14, 1, 0], [⟨225, false, 4538961884404557, 49⟩, ⟨227, true, 353643168192101, 46⟩,
    ⟨229, false, 4222428978390217, 50⟩, ⟨231, true, 6432328562400769, 51⟩, ⟨233, false, 4780457702837855, 51⟩,
    ⟨235, true, 828904315499315, 49⟩, ⟨237, false, 3908314959703701, 52⟩, ⟨239, true, 645888801528119, 51⟩]),
  ([0, 2, 13], [⟨240, true, 105, 1⟩, ⟨242, true, 5946054786326011, 47⟩]),
  ([0, 13, 2], [⟨227, false, 3046771910578101, 48⟩, ⟨229, false, 4990143338097529, 48⟩,
    ⟨231, false, 6432328562400769, 48⟩, ⟨233, false, 469509238671575, 44⟩, ⟨235, false, 8289043154993151, 48⟩,
    ⟨237, false, 8793708659333327, 48⟩, ⟨239, false, 4521221610696833, 47⟩]),
  ([2, 0, 13], [⟨240, true, 105, 1⟩, ⟨242, false, 5946054786326011, 47⟩]),
  ([2, 13, 0], [⟨225, false, 3971591648853987, 46⟩, ⟨227, false, 4189311377044889, 47⟩,
    ⟨229, false, 317881727066309, 44⟩, ⟨231, false, 5896301182200705, 49⟩, ⟨233, false, 5804841496303109, 50⟩,
    ⟨235, false, 828904315499315, 49⟩, ⟨237, true, 3908314959703701, 52⟩, ⟨239, true, 4521221610696833, 51⟩]),
  ([13, 0, 2], [⟨241, false, 4521221610696833, 47⟩, ⟨243, true, 8793708659333327, 48⟩,
    ⟨245, false, 8289043154993151, 48⟩, ⟨247, true, 469509238671575, 44⟩, ⟨249, false, 6432328562400769, 48⟩,
    ⟨251, true, 4990143338097529, 48⟩, ⟨253, false, 3046771910578101, 48⟩]),
  ([13, 2, 0], [⟨241, true, 4521221610696833, 51⟩, ⟨243, false, 3908314959703701, 52⟩,
    ⟨245, false, 828904315499315, 49⟩, ⟨247, true, 5804841496303109, 50⟩, ⟨249, false, 5896301182200705, 49⟩,
    ⟨251, true, 317881727066309, 44⟩, ⟨253, false, 4189311377044889, 47⟩, ⟨255, true, 3971591648853987, 46⟩]),
  ([0, 3, 12], [⟨237, true, 3789881173046013, 45⟩, ⟨239, true, 8768429790442343, 45⟩]),
  ([0, 12, 3], [⟨240, false, 105105, 10⟩, ⟨242, false, 4982143561198943, 45⟩, ⟨244, false, 4610489197914815, 45⟩,
    ⟨246, false, 8007976481628565, 46⟩, ⟨248, false, 3184366586796541, 45⟩, ⟨250, false, 2188322616084993, 45⟩,
    ⟨252, false, 8643181798636279, 48⟩]),
  ([3, 0, 12], [⟨241, true, 8768429790442343, 45⟩, ⟨243, false, 3789881173046013, 45⟩]),
  ([3, 12, 0], [⟨241, true, 4521221610696833, 51⟩, ⟨243, true, 2768389763123455, 49⟩,
    ⟨245, true, 2486712946497945, 49⟩, ⟨247, false, 4780457702837855, 51⟩, ⟨249, false, 5092260111900609, 48⟩,
    ⟨251, false, 6861447089884103, 47⟩, ⟨253, false, 7426506532034121, 46⟩, ⟨255, false, 8605115239183639, 45⟩]),
  ([12, 0, 3], [⟨240, false, 105105, 10⟩, ⟨242, true, 4982143561198943, 45⟩, ⟨244, false, 4610489197914815, 45⟩,
    ⟨246, true, 8007976481628565, 46⟩, ⟨248, false, 3184366586796541, 45⟩, ⟨250, true, 2188322616084993, 45⟩,
    ⟨252, false, 8643181798636279, 48⟩]),
  ([12, 3, 0], [⟨225, true, 8605115239183639, 45⟩, ⟨227, false, 7426506532034121, 46⟩,
    ⟨229, true, 6861447089884103, 47⟩, ⟨231, false, 5092260111900609, 48⟩, ⟨233, true, 4780457702837855, 51⟩,
    ⟨235, true, 2486712946497945, 49⟩, ⟨237, false, 2768389763123455, 49⟩, ⟨239, true, 4521221610696833, 51⟩]),
  ([0, 4, 11], [⟨240, false, 4095, 3⟩, ⟨242, false, 1207792378472471, 41⟩, ⟨244, false, 7153243846461773, 45⟩]),
  ([0, 11, 4], [⟨229, true, 4990143338097529, 46⟩, ⟨231, true, 5896301182200705, 45⟩,
    ⟨233, true, 2347546193357875, 43⟩, ⟨235, true, 6216782366244863, 44⟩, ⟨237, true, 916011318680555, 41⟩,
    ⟨239, true, 3956068909359729, 43⟩]),
  ([4, 0, 11], [⟨240, false, 4095, 3⟩, ⟨242, true, 1207792378472471, 41⟩, ⟨244, false, 7153243846461773, 45⟩]),
  ([4, 11, 0], [⟨225, true, 6453836429387729, 43⟩, ⟨227, true, 8664257620706475, 45⟩,
    ⟨229, true, 5302027296728625, 46⟩, ⟨231, true, 3752191661400449, 49⟩, ⟨233, false, 7341417186500991, 49⟩,
    ⟨235, false, 5802330208495205, 49⟩, ⟨237, false, 3908314959703701, 52⟩, ⟨239, true, 3390916208022625, 49⟩]),
  ([11, 0, 4], [⟨241, true, 3956068909359729, 43⟩, ⟨243, false, 916011318680555, 41⟩,
    ⟨245, true, 6216782366244863, 44⟩, ⟨247, false, 2347546193357875, 43⟩, ⟨249, true, 5896301182200705, 45⟩,
    ⟨251, false, 4990143338097529, 46⟩]),
  ([11, 4, 0], [⟨241, true, 3390916208022625, 49⟩, ⟨243, true, 3908314959703701, 52⟩,
    ⟨245, false, 5802330208495205, 49⟩, ⟨247, true, 7341417186500991, 49⟩, ⟨249, true, 3752191661400449, 49⟩,
    ⟨251, false, 5302027296728625, 46⟩, ⟨253, true, 8664257620706475, 45⟩, ⟨255, false, 6453836429387729, 43⟩]),
  ([0, 5, 10], [⟨235, false, 165780863099863, 39⟩, ⟨237, false, 3908314959703701, 42⟩,
    ⟨239, false, 6028295480929111, 42⟩]),
  ([0, 10, 5], [⟨240, true, 189189, 8⟩, ⟨242, true, 8718751232098149, 43⟩, ⟨244, true, 922097839582963, 40⟩,
    ⟨246, true, 2702692062549641, 42⟩, ⟨248, true, 3184366586796541, 43⟩, ⟨250, true, 4814309755386985, 45⟩]),
  ([5, 0, 10], [⟨241, false, 6028295480929111, 42⟩, ⟨243, true, 3908314959703701, 42⟩,
    ⟨245, false, 165780863099863, 39⟩]),
  ([5, 10, 0], [⟨241, true, 3390916208022625, 49⟩, ⟨243, true, 3175505904759257, 48⟩,
    ⟨245, true, 165780863099863, 49⟩, ⟨247, false, 3286564670701025, 47⟩, ⟨249, false, 4422225886650529, 47⟩,
    ⟨251, true, 6861447089884103, 47⟩, ⟨253, true, 850953873462243, 41⟩, ⟨255, true, 3549610036163251, 41⟩]),
  ([10, 0, 5], [⟨240, true, 189189, 8⟩, ⟨242, false, 8718751232098149, 43⟩, ⟨244, true, 922097839582963, 40⟩,
    ⟨246, false, 2702692062549641, 42⟩, ⟨248, true, 3184366586796541, 43⟩, ⟨250, false, 4814309755386985, 45⟩]),
  ([10, 5, 0], [⟨225, false, 3549610036163251, 41⟩, ⟨227, true, 850953873462243, 41⟩,
    ⟨229, false, 6861447089884103, 47⟩, ⟨231, false, 4422225886650529, 47⟩, ⟨233, true, 3286564670701025, 47⟩,
    ⟨235, true, 165780863099863, 49⟩, ⟨237, false, 3175505904759257, 48⟩, ⟨239, true, 3390916208022625, 49⟩]),
  ([0, 6, 9], [⟨240, true, 25025, 4⟩, ⟨242, true, 4151786300999119, 41⟩, ⟨244, true, 4917855144442469, 42⟩,
    ⟨246, true, 1601595296325713, 42⟩]),
  ([0, 9, 6], [⟨231, false, 1965433727400235, 43⟩, ⟨233, false, 1408527716014725, 41⟩,
    ⟨235, false, 2486712946497945, 41⟩, ⟨237, false, 6839551179481477, 42⟩, ⟨239, false, 3956068909359729, 41⟩]),
  ([6, 0, 9], [⟨240, true, 25025, 4⟩, ⟨242, false, 4151786300999119, 41⟩, ⟨244, true, 4917855144442469, 42⟩,
    ⟨246, false, 1601595296325713, 42⟩]),
  ([6, 9, 0], [⟨225, false, 46218880679209, 34⟩, ⟨227, false, 850953873462243, 41⟩,
    ⟨229, true, 6861447089884103, 47⟩, ⟨231, true, 8353093341450999, 47⟩, ⟨233, true, 469509238671575, 47⟩,
    ⟨235, false, 1346969512686387, 46⟩, ⟨237, false, 2035580708179011, 48⟩, ⟨239, true, 2825763506685521, 48⟩]),
  ([9, 0, 6], [⟨241, false, 3956068909359729, 41⟩, ⟨243, true, 6839551179481477, 42⟩,
    ⟨245, false, 2486712946497945, 41⟩, ⟨247, true, 1408527716014725, 41⟩, ⟨249, false, 1965433727400235, 43⟩]),
  ([9, 6, 0], [⟨241, true, 2825763506685521, 48⟩, ⟨243, true, 2035580708179011, 48⟩,
    ⟨245, false, 1346969512686387, 46⟩, ⟨247, false, 469509238671575, 47⟩, ⟨249, true, 8353093341450999, 47⟩,
    ⟨251, false, 6861447089884103, 47⟩, ⟨253, false, 850953873462243, 41⟩, ⟨255, true, 46218880679209, 34⟩]),
  ([0, 7, 8], [⟨233, true, 6438983844638743, 44⟩, ⟨235, true, 2486712946497945, 41⟩,
    ⟨237, true, 8793708659333327, 42⟩, ⟨239, true, 2825763506685521, 40⟩]),
  ([0, 8, 7], [⟨240, false, 225225, 7⟩, ⟨242, false, 4982143561198943, 41⟩, ⟨244, false, 922097839582963, 39⟩,
    ⟨246, false, 1029596976209387, 40⟩, ⟨248, false, 2729457074397035, 43⟩]),
  ([7, 0, 8], [⟨241, true, 2825763506685521, 40⟩, ⟨243, false, 8793708659333327, 42⟩,
    ⟨245, true, 2486712946497945, 41⟩, ⟨247, false, 6438983844638743, 44⟩]),
  ([7, 8, 0], [⟨241, true, 2825763506685521, 48⟩, ⟨243, true, 916011318680555, 46⟩,
    ⟨245, false, 1865034709873459, 47⟩, ⟨247, false, 4225583148044175, 47⟩, ⟨249, true, 4422225886650529, 47⟩,
    ⟨251, true, 5146085317413077, 45⟩, ⟨253, false, 5835112275169667, 45⟩, ⟨255, false, 59424275158983, 34⟩]),
  ([8, 0, 7], [⟨240, false, 225225, 7⟩, ⟨242, true, 4982143561198943, 41⟩, ⟨244, false, 922097839582963, 39⟩,
    ⟨246, true, 1029596976209387, 40⟩, ⟨248, false, 2729457074397035, 43⟩]),
  ([8, 7, 0], [⟨225, true, 59424275158983, 34⟩, ⟨227, false, 5835112275169667, 45⟩,
    ⟨229, false, 5146085317413077, 45⟩, ⟨231, true, 4422225886650529, 47⟩, ⟨233, true, 4225583148044175, 47⟩,
    ⟨235, false, 1865034709873459, 47⟩, ⟨237, false, 916011318680555, 46⟩, ⟨239, true, 2825763506685521, 48⟩]),
  ([1, 1, 13], [⟨238, false, 5946054786326011, 46⟩]),
  ([1, 13, 1], [⟨226, false, 5800880894070575, 47⟩, ⟨228, false, 1495935311302433, 45⟩,
    ⟨230, false, 5470806540212483, 47⟩, ⟨232, false, 1157951486107833, 45⟩, ⟨234, false, 7207178833465709, 48⟩,
    ⟨236, false, 4917855144442469, 48⟩, ⟨238, false, 4982143561198943, 49⟩]),
  ([13, 1, 1], [⟨226, false, 5800880894070575, 47⟩, ⟨228, true, 1495935311302433, 45⟩,
    ⟨230, false, 5470806540212483, 47⟩, ⟨232, true, 1157951486107833, 45⟩, ⟨234, false, 7207178833465709, 48⟩,
    ⟨236, true, 4917855144442469, 48⟩, ⟨238, false, 4982143561198943, 49⟩]),
  ([1, 2, 12], [⟨241, true, 8768429790442343, 45⟩, ⟨243, true, 1421205439892255, 42⟩]),
  ([1, 12, 2], [⟨241, false, 4521221610696833, 47⟩, ⟨243, false, 1648820373624999, 44⟩,
    ⟨245, false, 5180651971870719, 45⟩, ⟨247, false, 3286564670701025, 44⟩, ⟨249, false, 3618184816350433, 44⟩,
    ⟨251, false, 6861447089884103, 45⟩, ⟨253, false, 2475502177344707, 44⟩]),
  ([2, 1, 12], [⟨237, false, 1421205439892255, 42⟩, ⟨239, true, 8768429790442343, 45⟩]),
  ([2, 12, 1], [⟨240, true, 45045, 11⟩, ⟨242, true, 3113839725749339, 47⟩, ⟨244, false, 4917855144442469, 50⟩,
    ⟨246, false, 3303290298671783, 46⟩, ⟨248, false, 7237196788173957, 46⟩, ⟨250, false, 5881117030728419, 45⟩,
    ⟨252, false, 1012872867027689, 42⟩, ⟨254, false, 2356607863216171, 43⟩]),
  ([12, 1, 2], [⟨227, false, 2475502177344707, 44⟩, ⟨229, true, 6861447089884103, 45⟩,
    ⟨231, false, 3618184816350433, 44⟩, ⟨233, true, 3286564670701025, 44⟩, ⟨235, false, 5180651971870719, 45⟩,
    ⟨237, true, 1648820373624999, 44⟩, ⟨239, false, 4521221610696833, 47⟩]),
  ([12, 2, 1], [⟨240, true, 45045, 11⟩, ⟨242, false, 3113839725749339, 47⟩, ⟨244, false, 4917855144442469, 50⟩,
    ⟨246, true, 3303290298671783, 46⟩, ⟨248, false, 7237196788173957, 46⟩, ⟨250, true, 5881117030728419, 45⟩,
    ⟨252, false, 1012872867027689, 42⟩, ⟨254, true, 2356607863216171, 43⟩]),
  ([1, 3, 11], [⟨236, true, 7153243846461773, 43⟩, ⟨238, true, 1207792378472471, 40⟩]),
  ([1, 11, 3], [⟨228, true, 6482386348977209, 44⟩, ⟨230, true, 5470806540212483, 43⟩,
    ⟨232, true, 3184366586796541, 42⟩, ⟨234, true, 375373897576339, 39⟩, ⟨236, true, 4610489197914815, 43⟩,
    ⟨238, true, 4982143561198943, 44⟩]),
  ([3, 1, 11], [⟨236, false, 7153243846461773, 43⟩, ⟨238, true, 1207792378472471, 40⟩]),
  ([3, 11, 1], [⟨226, true, 2356607863216171, 41⟩, ⟨228, true, 6482386348977209, 43⟩,
    ⟨230, true, 6838508175265603, 44⟩, ⟨232, true, 1157951486107833, 43⟩, ⟨234, false, 4804785888977139, 48⟩,
    ⟨236, false, 4917855144442469, 46⟩, ⟨238, false, 3736607670899207, 46⟩]),
  ([11, 1, 3], [⟨228, false, 6482386348977209, 44⟩, ⟨230, true, 5470806540212483, 43⟩,
    ⟨232, false, 3184366586796541, 42⟩, ⟨234, true, 375373897576339, 39⟩, ⟨236, false, 4610489197914815, 43⟩,
    ⟨238, true, 4982143561198943, 44⟩]),
  ([11, 3, 1], [⟨226, true, 2356607863216171, 41⟩, ⟨228, false, 6482386348977209, 43⟩,
    ⟨230, true, 6838508175265603, 44⟩, ⟨232, false, 1157951486107833, 43⟩, ⟨234, false, 4804785888977139, 48⟩,
    ⟨236, true, 4917855144442469, 46⟩, ⟨238, false, 3736607670899207, 46⟩]),
  ([1, 4, 10], [⟨241, false, 6028295480929111, 42⟩, ⟨243, false, 183202263736111, 36⟩,
    ⟨245, false, 828904315499315, 39⟩]),
  ([1, 10, 4], [⟨241, true, 3956068909359729, 43⟩, ⟨243, true, 2748033956041665, 41⟩,
    ⟨245, true, 7770977957806079, 42⟩, ⟨247, true, 8216411676752563, 42⟩, ⟨249, true, 6633338829975793, 42⟩,
    ⟨251, true, 6861447089884103, 43⟩]),
  ([4, 1, 10], [⟨235, false, 828904315499315, 39⟩, ⟨237, true, 183202263736111, 36⟩,
    ⟨239, false, 6028295480929111, 42⟩]),
  ([4, 10, 1], [⟨240, true, 135135, 11⟩, ⟨242, true, 2802455753174405, 46⟩, ⟨244, false, 729994123003179, 43⟩,
    ⟨246, false, 731979100273861, 42⟩, ⟨248, false, 3184366586796541, 46⟩, ⟨250, true, 2068648723017845, 42⟩,
    ⟨252, true, 6684960922382747, 42⟩, ⟨254, true, 3240335811922235, 40⟩]),
  ([10, 1, 4], [⟨229, false, 6861447089884103, 43⟩, ⟨231, true, 6633338829975793, 42⟩,
    ⟨233, false, 8216411676752563, 42⟩, ⟨235, true, 7770977957806079, 42⟩, ⟨237, false, 2748033956041665, 41⟩,
    ⟨239, true, 3956068909359729, 43⟩]),
  ([10, 4, 1], [⟨240, true, 135135, 11⟩, ⟨242, false, 2802455753174405, 46⟩, ⟨244, false, 729994123003179, 43⟩,
    ⟨246, true, 731979100273861, 42⟩, ⟨248, false, 3184366586796541, 46⟩, ⟨250, false, 2068648723017845, 42⟩,
    ⟨252, true, 6684960922382747, 42⟩, ⟨254, false, 3240335811922235, 40⟩]),
  ([1, 5, 9], [⟨234, false, 4804785888977139, 41⟩, ⟨236, false, 4917855144442469, 40⟩,
    ⟨238, false, 4151786300999119, 40⟩]),
  ([1, 9, 5], [⟨230, false, 6017887194233731, 42⟩, ⟨232, false, 3184366586796541, 40⟩,
    ⟨234, false, 4054038093824461, 40⟩, ⟨236, false, 922097839582963, 38⟩, ⟨238, false, 8718751232098149, 42⟩]),
  ([5, 1, 9], [⟨234, false, 4804785888977139, 41⟩, ⟨236, true, 4917855144442469, 40⟩,
    ⟨238, false, 4151786300999119, 40⟩]),
  ([5, 9, 1], [⟨226, false, 3240335811922235, 39⟩, ⟨228, false, 8913281229843663, 42⟩,
    ⟨230, false, 6017887194233731, 46⟩, ⟨232, true, 3184366586796541, 43⟩, ⟨234, true, 5705683243160353, 45⟩,
    ⟨236, false, 3073659465276543, 45⟩, ⟨238, false, 4670759588624009, 45⟩]),
  ([9, 1, 5], [⟨230, false, 6017887194233731, 42⟩, ⟨232, true, 3184366586796541, 40⟩,
    ⟨234, false, 4054038093824461, 40⟩, ⟨236, true, 922097839582963, 38⟩, ⟨238, false, 8718751232098149, 42⟩]),
  ([9, 5, 1], [⟨226, false, 3240335811922235, 39⟩, ⟨228, true, 8913281229843663, 42⟩,
    ⟨230, false, 6017887194233731, 46⟩, ⟨232, false, 3184366586796541, 43⟩, ⟨234, true, 5705683243160353, 45⟩,
    ⟨236, true, 3073659465276543, 45⟩, ⟨238, false, 4670759588624009, 45⟩]),
  ([1, 6, 8], [⟨241, true, 2825763506685521, 40⟩, ⟨243, true, 1648820373624999, 38⟩,
    ⟨245, true, 6216782366244863, 40⟩, ⟨247, true, 1408527716014725, 39⟩]),
  ([1, 8, 6], [⟨241, false, 3956068909359729, 41⟩, ⟨243, false, 1282415846152777, 38⟩,
    ⟨245, false, 6216782366244863, 40⟩, ⟨247, false, 2464923503025769, 39⟩, ⟨249, false, 4422225886650529, 41⟩]),
  ([6, 1, 8], [⟨233, false, 1408527716014725, 39⟩, ⟨235, true, 6216782366244863, 40⟩,
    ⟨237, false, 1648820373624999, 38⟩, ⟨239, true, 2825763506685521, 40⟩]),
  ([6, 8, 1], [⟨240, true, 225225, 11⟩, ⟨242, true, 3113839725749339, 47⟩, ⟨244, false, 3457866898436111, 44⟩,
    ⟨246, false, 4054038093824461, 45⟩, ⟨248, true, 7164824820292217, 44⟩, ⟨250, true, 5641769244594123, 43⟩,
    ⟨252, false, 6684960922382747, 42⟩, ⟨254, false, 607562964735419, 36⟩]),
  ([8, 1, 6], [⟨231, false, 4422225886650529, 41⟩, ⟨233, true, 2464923503025769, 39⟩,
    ⟨235, false, 6216782366244863, 40⟩, ⟨237, true, 1282415846152777, 38⟩, ⟨239, false, 3956068909359729, 41⟩]),
  ([8, 6, 1], [⟨240, true, 225225, 11⟩, ⟨242, false, 3113839725749339, 47⟩, ⟨244, false, 3457866898436111, 44⟩,
    ⟨246, true, 4054038093824461, 45⟩, ⟨248, true, 7164824820292217, 44⟩, ⟨250, false, 5641769244594123, 43⟩,
    ⟨252, false, 6684960922382747, 42⟩, ⟨254, true, 607562964735419, 36⟩]),
  ([1, 7, 7], [⟨232, true, 2729457074397035, 40⟩, ⟨234, true, 3088790928628161, 39⟩,
    ⟨236, true, 922097839582963, 37⟩, ⟨238, true, 4982143561198943, 40⟩]),
  ([7, 1, 7], [⟨232, false, 2729457074397035, 40⟩, ⟨234, true, 3088790928628161, 39⟩,
    ⟨236, false, 922097839582963, 37⟩, ⟨238, true, 4982143561198943, 40⟩]),
  ([7, 7, 1], [⟨226, true, 5554861391866689, 39⟩, ⟨230, false, 2256707697837649, 41⟩,
    ⟨234, true, 2702692062549641, 43⟩, ⟨238, false, 3113839725749339, 44⟩]),
  ([2, 2, 11], [⟨240, false, 4095, 2⟩, ⟨244, true, 2682466442423165, 41⟩]),
  ([2, 11, 2], [⟨227, true, 7426506532034121, 43⟩, ⟨229, true, 8420866883039581, 43⟩,
    ⟨231, true, 3417174548775409, 42⟩, ⟨233, true, 4225583148044175, 43⟩, ⟨235, true, 6216782366244863, 45⟩,
    ⟨237, false, 8793708659333327, 47⟩, ⟨239, false, 3390916208022625, 44⟩]),
  ([11, 2, 2], [⟨241, false, 3390916208022625, 44⟩, ⟨243, true, 8793708659333327, 47⟩,
    ⟨245, true, 6216782366244863, 45⟩, ⟨247, false, 4225583148044175, 43⟩, ⟨249, true, 3417174548775409, 42⟩,
    ⟨251, false, 8420866883039581, 43⟩, ⟨253, true, 7426506532034121, 43⟩]),
  ([2, 3, 10], [⟨235, true, 828904315499315, 38⟩, ⟨237, true, 3908314959703701, 41⟩,
    ⟨239, false, 6028295480929111, 41⟩]),
  ([2, 10, 3], [⟨240, false, 315315, 9⟩, ⟨242, false, 4982143561198943, 43⟩, ⟨244, true, 4610489197914815, 44⟩,
    ⟨246, true, 375373897576339, 38⟩, ⟨248, true, 5174595703544379, 41⟩, ⟨250, true, 6017887194233731, 41⟩,
    ⟨252, true, 8913281229843663, 42⟩]),
  ([3, 2, 10], [⟨241, false, 6028295480929111, 41⟩, ⟨243, false, 3908314959703701, 41⟩,
    ⟨245, true, 828904315499315, 38⟩]),
  ([3, 10, 2], [⟨241, false, 3390916208022625, 44⟩, ⟨243, false, 7694495076916661, 44⟩,
    ⟨245, false, 5180651971870719, 44⟩, ⟨247, true, 3286564670701025, 43⟩, ⟨249, true, 6633338829975793, 42⟩,
    ⟨251, true, 3001883101824295, 40⟩, ⟨253, true, 850953873462243, 38⟩]),
  ([10, 2, 3], [⟨240, false, 315315, 9⟩, ⟨242, true, 4982143561198943, 43⟩, ⟨244, true, 4610489197914815, 44⟩,
    ⟨246, false, 375373897576339, 38⟩, ⟨248, true, 5174595703544379, 41⟩, ⟨250, false, 6017887194233731, 41⟩,
    ⟨252, true, 8913281229843663, 42⟩]),
  ([10, 3, 2], [⟨227, true, 850953873462243, 38⟩, ⟨229, false, 3001883101824295, 40⟩,
    ⟨231, true, 6633338829975793, 42⟩, ⟨233, false, 3286564670701025, 43⟩, ⟨235, false, 5180651971870719, 44⟩,
    ⟨237, true, 7694495076916661, 44⟩, ⟨239, false, 3390916208022625, 44⟩]),
  ([2, 4, 9], [⟨240, true, 75075, 4⟩, ⟨242, true, 4151786300999119, 41⟩, ⟨244, false, 3073659465276543, 39⟩,
    ⟨246, false, 375373897576339, 36⟩]),
  ([2, 9, 4], [⟨229, false, 8576808862355129, 41⟩, ⟨231, false, 6449079418032021, 40⟩,
    ⟨233, false, 5575422209224953, 40⟩, ⟨235, false, 5439684570464255, 41⟩, ⟨237, true, 916011318680555, 41⟩,
    ⟨239, true, 4945086136699661, 41⟩]),
  ([4, 2, 9], [⟨240, true, 75075, 4⟩, ⟨242, false, 4151786300999119, 41⟩, ⟨244, false, 3073659465276543, 39⟩,
    ⟨246, true, 375373897576339, 36⟩]),
  ([4, 9, 2], [⟨227, false, 8509538734622431, 40⟩, ⟨229, false, 1340126384742989, 38⟩,
    ⟨231, false, 5527782358313161, 42⟩, ⟨233, true, 45850511589021, 36⟩, ⟨235, true, 7511945359212543, 43⟩,
    ⟨237, true, 2748033956041665, 44⟩, ⟨239, false, 4238645260028281, 43⟩]),
  ([9, 2, 4], [⟨241, true, 4945086136699661, 41⟩, ⟨243, false, 916011318680555, 41⟩,
    ⟨245, false, 5439684570464255, 41⟩, ⟨247, true, 5575422209224953, 40⟩, ⟨249, false, 6449079418032021, 40⟩,
    ⟨251, true, 8576808862355129, 41⟩]),
  ([9, 4, 2], [⟨241, false, 4238645260028281, 43⟩, ⟨243, false, 2748033956041665, 44⟩,
    ⟨245, true, 7511945359212543, 43⟩, ⟨247, false, 45850511589021, 36⟩, ⟨249, false, 5527782358313161, 42⟩,
    ⟨251, true, 1340126384742989, 38⟩, ⟨253, false, 8509538734622431, 40⟩]),
  ([2, 5, 8], [⟨233, false, 4225583148044175, 39⟩, ⟨235, false, 5595104129620377, 39⟩,
    ⟨237, false, 8793708659333327, 42⟩, ⟨239, true, 4238645260028281, 39⟩]),
  ([2, 8, 5], [⟨240, true, 945945, 8⟩, ⟨242, true, 1634765856018403, 39⟩, ⟨244, false, 2766293518748889, 40⟩,
    ⟨246, false, 8783749203286333, 40⟩, ⟨248, false, 5373618615219163, 39⟩, ⟨250, false, 6770123093512947, 40⟩]),
  ([5, 2, 8], [⟨241, true, 4238645260028281, 39⟩, ⟨243, true, 8793708659333327, 42⟩,
    ⟨245, false, 5595104129620377, 39⟩, ⟨247, true, 4225583148044175, 39⟩]),
  ([5, 8, 2], [⟨241, false, 4238645260028281, 43⟩, ⟨243, false, 3435042445052081, 42⟩,
    ⟨245, true, 4662586774683647, 44⟩, ⟨247, true, 7394770509077307, 42⟩, ⟨249, true, 6633338829975793, 43⟩,
    ⟨251, false, 361834123880607, 36⟩, ⟨253, false, 1914646215290047, 37⟩]),
  ([8, 2, 5], [⟨240, true, 945945, 8⟩, ⟨242, false, 1634765856018403, 39⟩, ⟨244, false, 2766293518748889, 40⟩,
    ⟨246, true, 8783749203286333, 40⟩, ⟨248, false, 5373618615219163, 39⟩, ⟨250, true, 6770123093512947, 40⟩]),
  ([8, 5, 2], [⟨227, false, 1914646215290047, 37⟩, ⟨229, true, 361834123880607, 36⟩,
    ⟨231, true, 6633338829975793, 43⟩, ⟨233, false, 7394770509077307, 42⟩, ⟨235, true, 4662586774683647, 44⟩,
    ⟨237, true, 3435042445052081, 42⟩, ⟨239, false, 4238645260028281, 43⟩]),
  ([2, 6, 7], [⟨240, false, 225225, 5⟩, ⟨242, false, 4982143561198943, 40⟩, ⟨244, true, 922097839582963, 37⟩,
    ⟨246, true, 7207178833465709, 39⟩, ⟨248, true, 4776549880194811, 39⟩]),
  ([2, 7, 6], [⟨231, true, 4422225886650529, 39⟩, ⟨233, true, 7042638580073625, 39⟩,
    ⟨235, true, 2486712946497945, 38⟩, ⟨239, false, 3956068909359729, 39⟩]),
  ([6, 2, 7], [⟨240, false, 225225, 5⟩, ⟨242, true, 4982143561198943, 40⟩, ⟨244, true, 922097839582963, 37⟩,
    ⟨246, false, 7207178833465709, 39⟩, ⟨248, true, 4776549880194811, 39⟩]),
  ([6, 7, 2], [⟨227, true, 2552861620386729, 37⟩, ⟨229, true, 5146085317413077, 41⟩,
    ⟨231, false, 6633338829975793, 41⟩, ⟨233, false, 4225583148044175, 42⟩, ⟨235, true, 4662586774683647, 42⟩,
    ⟨237, true, 2748033956041665, 42⟩, ⟨239, false, 2825763506685521, 42⟩]),
  ([7, 2, 6], [⟨241, false, 3956068909359729, 39⟩, ⟨245, true, 2486712946497945, 38⟩,
    ⟨247, false, 7042638580073625, 39⟩, ⟨249, true, 4422225886650529, 39⟩]),
  ([7, 6, 2], [⟨241, false, 2825763506685521, 42⟩, ⟨243, false, 2748033956041665, 42⟩,
    ⟨245, true, 4662586774683647, 42⟩, ⟨247, true, 4225583148044175, 42⟩, ⟨249, false, 6633338829975793, 41⟩,
    ⟨251, false, 5146085317413077, 41⟩, ⟨253, true, 2552861620386729, 37⟩]),
  ([3, 3, 9], [⟨234, true, 8007976481628565, 40⟩, ⟨238, false, 4151786300999119, 39⟩]),
  ([3, 9, 3], [⟨228, false, 1856933589550763, 38⟩, ⟨230, false, 1880589748198041, 38⟩,
    ⟨232, false, 995114558373919, 38⟩, ⟨234, false, 8007976481628565, 45⟩, ⟨236, true, 3457866898436111, 41⟩,
    ⟨238, true, 3113839725749339, 41⟩]),
  ([9, 3, 3], [⟨228, true, 1856933589550763, 38⟩, ⟨230, false, 1880589748198041, 38⟩,
    ⟨232, true, 995114558373919, 38⟩, ⟨234, false, 8007976481628565, 45⟩, ⟨236, false, 3457866898436111, 41⟩,
    ⟨238, true, 3113839725749339, 41⟩]),
  ([3, 4, 8], [⟨241, true, 4238645260028281, 39⟩, ⟨243, true, 2748033956041665, 38⟩,
    ⟨245, false, 6216782366244863, 40⟩, ⟨247, false, 7042638580073625, 39⟩]),
  ([3, 8, 4], [⟨241, true, 4945086136699661, 41⟩, ⟨243, true, 1259515563185763, 38⟩,
    ⟨245, true, 7770977957806079, 42⟩, ⟨247, false, 3081154378782211, 39⟩, ⟨249, false, 1727431986972863, 37⟩,
    ⟨251, false, 6432606646766347, 39⟩]),
  ([4, 3, 8], [⟨233, true, 7042638580073625, 39⟩, ⟨235, false, 6216782366244863, 40⟩,
    ⟨237, false, 2748033956041665, 38⟩, ⟨239, true, 4238645260028281, 39⟩]),
  ([4, 8, 3], [⟨240, false, 1576575, 10⟩, ⟨242, false, 3113839725749339, 42⟩, ⟨244, true, 4898644772784491, 41⟩,
    ⟨246, true, 3378365078187051, 40⟩, ⟨248, false, 2985343675121757, 41⟩, ⟨250, false, 5641769244594123, 39⟩,
    ⟨252, false, 4178100576489217, 38⟩]),
  ([8, 3, 4], [⟨229, true, 6432606646766347, 39⟩, ⟨231, false, 1727431986972863, 37⟩,
    ⟨233, true, 3081154378782211, 39⟩, ⟨235, true, 7770977957806079, 42⟩, ⟨237, false, 1259515563185763, 38⟩,
    ⟨239, true, 4945086136699661, 41⟩]),
  ([8, 4, 3], [⟨240, false, 1576575, 10⟩, ⟨242, true, 3113839725749339, 42⟩, ⟨244, true, 4898644772784491, 41⟩,
    ⟨246, false, 3378365078187051, 40⟩, ⟨248, false, 2985343675121757, 41⟩, ⟨250, true, 5641769244594123, 39⟩,
    ⟨252, false, 4178100576489217, 38⟩]),
  ([3, 5, 7], [⟨232, false, 4776549880194811, 38⟩, ⟨234, false, 7207178833465709, 39⟩,
    ⟨236, true, 922097839582963, 37⟩, ⟨238, true, 3736607670899207, 38⟩]),
  ([3, 7, 5], [⟨230, true, 2256707697837649, 37⟩, ⟨232, true, 4776549880194811, 38⟩,
    ⟨234, true, 2702692062549641, 39⟩, ⟨236, false, 922097839582963, 37⟩, ⟨238, false, 8718751232098149, 40⟩]),
  ([5, 3, 7], [⟨232, true, 4776549880194811, 38⟩, ⟨234, false, 7207178833465709, 39⟩,
    ⟨236, false, 922097839582963, 37⟩, ⟨238, true, 3736607670899207, 38⟩]),
  ([5, 7, 3], [⟨228, true, 6684960922382747, 38⟩, ⟨230, true, 2256707697837649, 38⟩,
    ⟨232, false, 4776549880194811, 40⟩, ⟨234, false, 1126121692729017, 38⟩, ⟨236, true, 4610489197914815, 42⟩,
    ⟨238, true, 3113839725749339, 40⟩]),
  ([7, 3, 5], [⟨230, true, 2256707697837649, 37⟩, ⟨232, false, 4776549880194811, 38⟩,
    ⟨234, true, 2702692062549641, 39⟩, ⟨236, true, 922097839582963, 37⟩, ⟨238, false, 8718751232098149, 40⟩]),
  ([7, 5, 3], [⟨228, false, 6684960922382747, 38⟩, ⟨230, true, 2256707697837649, 38⟩,
    ⟨232, true, 4776549880194811, 40⟩, ⟨234, false, 1126121692729017, 38⟩, ⟨236, false, 4610489197914815, 42⟩,
    ⟨238, true, 3113839725749339, 40⟩]),
  ([3, 6, 6], [⟨241, false, 3956068909359729, 39⟩, ⟨243, false, 6839551179481477, 39⟩,
    ⟨247, true, 2464923503025769, 37⟩, ⟨249, true, 5159263534425617, 38⟩]),
  ([6, 3, 6], [⟨231, true, 5159263534425617, 38⟩, ⟨233, false, 2464923503025769, 37⟩,
    ⟨237, true, 6839551179481477, 39⟩, ⟨239, false, 3956068909359729, 39⟩]),
  ([6, 6, 3], [⟨240, false, 525525, 8⟩, ⟨244, true, 4034178048175463, 40⟩, ⟨248, false, 1044870286292615, 37⟩,
    ⟨252, true, 7799121076113205, 38⟩]),
  ([4, 4, 7], [⟨240, false, 675675, 6⟩, ⟨244, true, 4610489197914815, 38⟩, ⟨248, false, 2985343675121757, 37⟩]),
  ([4, 7, 4], [⟨229, true, 6432606646766347, 38⟩, ⟨231, true, 4145836768734871, 38⟩,
    ⟨233, false, 7042638580073625, 42⟩, ⟨235, false, 4274037876793343, 39⟩, ⟨237, false, 2748033956041665, 40⟩,
    ⟨239, true, 4945086136699661, 40⟩]),
  ([7, 4, 4], [⟨241, true, 4945086136699661, 40⟩, ⟨243, true, 2748033956041665, 40⟩,
    ⟨245, false, 4274037876793343, 39⟩, ⟨247, true, 7042638580073625, 42⟩, ⟨249, true, 4145836768734871, 38⟩,
    ⟨251, false, 6432606646766347, 38⟩]),
  ([4, 5, 6], [⟨231, false, 3869447650819213, 37⟩, ⟨233, false, 2464923503025769, 38⟩,
    ⟨235, true, 1087936914092851, 36⟩, ⟨237, true, 1282415846152777, 37⟩, ⟨239, false, 2967051682019797, 38⟩]),
  ([4, 6, 5], [⟨240, true, 945945, 7⟩, ⟨242, true, 8718751232098149, 42⟩, ⟨244, false, 6454684877080741, 39⟩,
    ⟨246, false, 4729711109461871, 39⟩, ⟨248, true, 1044870286292615, 36⟩, ⟨250, true, 1974619235607943, 36⟩]),
  ([5, 4, 6], [⟨241, false, 2967051682019797, 38⟩, ⟨243, false, 1282415846152777, 37⟩,
    ⟨245, true, 1087936914092851, 36⟩, ⟨247, true, 2464923503025769, 38⟩, ⟨249, false, 3869447650819213, 37⟩]),
  ([5, 6, 4], [⟨241, true, 4945086136699661, 40⟩, ⟨243, true, 6412079230763885, 40⟩,
    ⟨245, false, 5439684570464255, 40⟩, ⟨247, false, 3081154378782211, 38⟩, ⟨249, true, 3869447650819213, 39⟩,
    ⟨251, true, 9005649305472885, 38⟩]),
  ([6, 4, 5], [⟨240, true, 945945, 7⟩, ⟨242, false, 8718751232098149, 42⟩, ⟨244, false, 6454684877080741, 39⟩,
    ⟨246, true, 4729711109461871, 39⟩, ⟨248, true, 1044870286292615, 36⟩, ⟨250, false, 1974619235607943, 36⟩]),
  ([6, 5, 4], [⟨229, false, 9005649305472885, 38⟩, ⟨231, true, 3869447650819213, 39⟩,
    ⟨233, true, 3081154378782211, 38⟩, ⟨235, false, 5439684570464255, 40⟩, ⟨237, false, 6412079230763885, 40⟩,
    ⟨239, true, 4945086136699661, 40⟩]),
  ([5, 5, 5], [⟨230, false, 4739086165459063, 37⟩, ⟨234, true, 4729711109461871, 38⟩,
    ⟨238, false, 1634765856018403, 37⟩])]

/-- All rows of the archive: so3/_spherical_harmonics_lut.npz. -/
def shippedRows : List (List Nat × List ShippedEntry) :=
  shippedRows0 ++ shippedRows1 ++ shippedRows2 ++ shippedRows3 ++ shippedRows4 ++ shippedRows5 ++ shippedRows6 ++
    shippedRows7 ++ shippedRows8 ++ shippedRows9 ++ shippedRows10 ++ shippedRows11 ++ shippedRows12 ++
    shippedRows13 ++ shippedRows14 ++ shippedRows15

/-- The content of the archive so3/_spherical_harmonics_lut.npz: the degree, `ls`, and `cm` zipped with `i0` and
`i1`. -/
noncomputable def shippedSphericalHarmonics : SHCompressed where
  maxDegree := 15
  ls := fun i => (shippedRows.map (·.1)).getD i []
  entries := shippedRows.zipIdx.flatMap fun r => r.1.2.map fun e => ((r.2, e.column), e.value)

end E3x
