import Verif.Lemmas.ShippedCheck

/-!
# Integer matrices that certify the shipped tensor-conversion matrices

For the degree `l`, `Q` is the integer matrix with `s2t m i = √R_m Q m i / (2ˡ (2l-1)‼)`; `V` and `den` satisfy
`Q Qᵀ V = den`, and `U = Qᵀ V`. A row of `certRowsₗ` belongs to a stored component `xᵃ yᵇ zᶜ` and lists the nonzero
entries of `Q` and `U` for it; `certInverseₗ` lists the rows of `V`. That these numbers have the stated properties is proved
in the next files.
-/

namespace E3x.Coefficients

/-- a nonzero entry of an integer matrix in some row -/
structure CertEntry where
  column : ℕ
  negative : Bool
  size : ℕ

/-- the numbers for a stored component -/
structure CertRow where
  a : ℕ
  b : ℕ
  c : ℕ
  q : List CertEntry
  u : List CertEntry

/-- degree 0: the rows of `Qᵀ` and `U` -/
def certRows0 : List CertRow := [
  ⟨0, 0, 0,
    [⟨0, false, 1⟩],
    [⟨0, false, 1⟩]⟩]

/-- degree 0: the rows of `V` -/
def certInverse0 : List (List CertEntry) := [
  [⟨0, false, 1⟩]]

/-- degree 0: the denominator -/
def certDen0 : ℕ := 1

/-- degree 1: the rows of `Qᵀ` and `U` -/
def certRows1 : List CertRow := [
  ⟨1, 0, 0,
    [⟨2, false, 2⟩],
    [⟨2, false, 2⟩]⟩,
  ⟨0, 1, 0,
    [⟨0, false, 2⟩],
    [⟨0, false, 2⟩]⟩,
  ⟨0, 0, 1,
    [⟨1, false, 2⟩],
    [⟨1, false, 2⟩]⟩]

/-- degree 1: the rows of `V` -/
def certInverse1 : List (List CertEntry) := [
  [⟨0, false, 1⟩],
  [⟨1, false, 1⟩],
  [⟨2, false, 1⟩]]

/-- degree 1: the denominator -/
def certDen1 : ℕ := 4

/-- degree 2: the rows of `Qᵀ` and `U` -/
def certRows2 : List CertRow := [
  ⟨2, 0, 0,
    [⟨2, true, 4⟩, ⟨4, false, 24⟩],
    [⟨2, true, 48⟩, ⟨4, false, 24⟩]⟩,
  ⟨1, 1, 0,
    [⟨0, false, 24⟩],
    [⟨0, false, 48⟩]⟩,
  ⟨1, 0, 1,
    [⟨3, false, 12⟩],
    [⟨3, false, 96⟩]⟩,
  ⟨0, 2, 0,
    [⟨2, true, 4⟩, ⟨4, true, 24⟩],
    [⟨2, true, 48⟩, ⟨4, true, 24⟩]⟩,
  ⟨0, 1, 1,
    [⟨1, false, 12⟩],
    [⟨1, false, 96⟩]⟩,
  ⟨0, 0, 2,
    [⟨2, false, 8⟩],
    [⟨2, false, 96⟩]⟩]

/-- degree 2: the rows of `V` -/
def certInverse2 : List (List CertEntry) := [
  [⟨0, false, 2⟩],
  [⟨1, false, 8⟩],
  [⟨2, false, 12⟩],
  [⟨3, false, 8⟩],
  [⟨4, false, 1⟩]]

/-- degree 2: the denominator -/
def certDen2 : ℕ := 1152

/-- degree 3: the rows of `Qᵀ` and `U` -/
def certRows3 : List CertRow := [
  ⟨3, 0, 0,
    [⟨4, true, 72⟩, ⟨6, false, 720⟩],
    [⟨4, true, 43200⟩, ⟨6, false, 7200⟩]⟩,
  ⟨2, 1, 0,
    [⟨0, false, 720⟩, ⟨2, true, 24⟩],
    [⟨0, false, 10080⟩, ⟨2, true, 43200⟩]⟩,
  ⟨2, 0, 1,
    [⟨3, true, 24⟩, ⟨5, false, 240⟩],
    [⟨3, true, 86400⟩, ⟨5, false, 25920⟩]⟩,
  ⟨1, 2, 0,
    [⟨4, true, 24⟩, ⟨6, true, 720⟩],
    [⟨4, true, 43200⟩, ⟨6, true, 10080⟩]⟩,
  ⟨1, 1, 1,
    [⟨1, false, 240⟩],
    [⟨1, false, 51840⟩]⟩,
  ⟨1, 0, 2,
    [⟨4, false, 96⟩],
    [⟨4, false, 86400⟩, ⟨6, false, 2880⟩]⟩,
  ⟨0, 3, 0,
    [⟨0, true, 720⟩, ⟨2, true, 72⟩],
    [⟨0, true, 7200⟩, ⟨2, true, 43200⟩]⟩,
  ⟨0, 2, 1,
    [⟨3, true, 24⟩, ⟨5, true, 240⟩],
    [⟨3, true, 86400⟩, ⟨5, true, 25920⟩]⟩,
  ⟨0, 1, 2,
    [⟨2, false, 96⟩],
    [⟨0, true, 2880⟩, ⟨2, false, 86400⟩]⟩,
  ⟨0, 0, 3,
    [⟨3, false, 48⟩],
    [⟨3, false, 172800⟩]⟩]

/-- degree 3: the rows of `V` -/
def certInverse3 : List (List CertEntry) := [
  [⟨0, false, 13⟩, ⟨2, true, 30⟩],
  [⟨1, false, 216⟩],
  [⟨0, true, 30⟩, ⟨2, false, 900⟩],
  [⟨3, false, 3600⟩],
  [⟨4, false, 900⟩, ⟨6, false, 30⟩],
  [⟨5, false, 108⟩],
  [⟨4, false, 30⟩, ⟨6, false, 13⟩]]

/-- degree 3: the denominator -/
def certDen3 : ℕ := 12441600

/-- degree 4: the rows of `Qᵀ` and `U` -/
def certRows4 : List CertRow := [
  ⟨4, 0, 0,
    [⟨4, false, 144⟩, ⟨6, true, 2880⟩, ⟨8, false, 40320⟩],
    [⟨4, false, 81285120⟩, ⟨6, true, 27095040⟩, ⟨8, false, 2419200⟩]⟩,
  ⟨3, 1, 0,
    [⟨0, false, 40320⟩, ⟨2, true, 1440⟩],
    [⟨0, false, 3870720⟩, ⟨2, true, 36126720⟩]⟩,
  ⟨3, 0, 1,
    [⟨5, true, 720⟩, ⟨7, false, 10080⟩],
    [⟨5, true, 108380160⟩, ⟨7, false, 12902400⟩]⟩,
  ⟨2, 2, 0,
    [⟨4, false, 48⟩, ⟨8, true, 40320⟩],
    [⟨4, false, 162570240⟩, ⟨8, true, 2903040⟩]⟩,
  ⟨2, 1, 1,
    [⟨1, false, 10080⟩, ⟨3, true, 240⟩],
    [⟨1, false, 18063360⟩, ⟨3, true, 108380160⟩]⟩,
  ⟨2, 0, 2,
    [⟨4, true, 192⟩, ⟨6, false, 2880⟩],
    [⟨4, true, 243855360⟩, ⟨6, false, 27095040⟩, ⟨8, false, 483840⟩]⟩,
  ⟨1, 3, 0,
    [⟨0, true, 40320⟩, ⟨2, true, 1440⟩],
    [⟨0, true, 3870720⟩, ⟨2, true, 36126720⟩]⟩,
  ⟨1, 2, 1,
    [⟨5, true, 240⟩, ⟨7, true, 10080⟩],
    [⟨5, true, 108380160⟩, ⟨7, true, 18063360⟩]⟩,
  ⟨1, 1, 2,
    [⟨2, false, 2880⟩],
    [⟨2, false, 72253440⟩]⟩,
  ⟨1, 0, 3,
    [⟨5, false, 960⟩],
    [⟨5, false, 216760320⟩, ⟨7, false, 5160960⟩]⟩,
  ⟨0, 4, 0,
    [⟨4, false, 144⟩, ⟨6, false, 2880⟩, ⟨8, false, 40320⟩],
    [⟨4, false, 81285120⟩, ⟨6, false, 27095040⟩, ⟨8, false, 2419200⟩]⟩,
  ⟨0, 3, 1,
    [⟨1, true, 10080⟩, ⟨3, true, 720⟩],
    [⟨1, true, 12902400⟩, ⟨3, true, 108380160⟩]⟩,
  ⟨0, 2, 2,
    [⟨4, true, 192⟩, ⟨6, true, 2880⟩],
    [⟨4, true, 243855360⟩, ⟨6, true, 27095040⟩, ⟨8, false, 483840⟩]⟩,
  ⟨0, 1, 3,
    [⟨3, false, 960⟩],
    [⟨1, true, 5160960⟩, ⟨3, false, 216760320⟩]⟩,
  ⟨0, 0, 4,
    [⟨4, false, 384⟩],
    [⟨4, false, 487710720⟩, ⟨8, true, 967680⟩]⟩]

/-- degree 4: the rows of `V` -/
def certInverse4 : List (List CertEntry) := [
  [⟨0, false, 96⟩],
  [⟨1, false, 1664⟩, ⟨3, true, 5376⟩],
  [⟨2, false, 25088⟩],
  [⟨1, true, 5376⟩, ⟨3, false, 225792⟩],
  [⟨4, false, 1270080⟩, ⟨8, true, 2520⟩],
  [⟨5, false, 225792⟩, ⟨7, false, 5376⟩],
  [⟨6, false, 9408⟩],
  [⟨5, false, 5376⟩, ⟨7, false, 1664⟩],
  [⟨4, true, 2520⟩, ⟨8, false, 69⟩]]

/-- degree 4: the denominator -/
def certDen4 : ℕ := 312134860800

/-- degree 5: the rows of `Qᵀ` and `U` -/
def certRows5 : List CertRow := [
  ⟨5, 0, 0,
    [⟨6, false, 7200⟩, ⟨8, true, 201600⟩, ⟨10, false, 3628800⟩],
    [⟨6, false, 146313216000⟩, ⟨8, true, 23514624000⟩, ⟨10, false, 1190246400⟩]⟩,
  ⟨4, 1, 0,
    [⟨0, false, 3628800⟩, ⟨2, true, 120960⟩, ⟨4, false, 1440⟩],
    [⟨0, false, 1770854400⟩, ⟨2, true, 28740096000⟩, ⟨4, false, 146313216000⟩]⟩,
  ⟨4, 0, 1,
    [⟨5, false, 1440⟩, ⟨7, true, 40320⟩, ⟨9, false, 725760⟩],
    [⟨5, false, 438939648000⟩, ⟨7, true, 104509440000⟩, ⟨9, false, 7257600000⟩]⟩,
  ⟨3, 2, 0,
    [⟨6, false, 1440⟩, ⟨8, false, 40320⟩, ⟨10, true, 3628800⟩],
    [⟨6, false, 292626432000⟩, ⟨8, false, 5225472000⟩, ⟨10, true, 1683763200⟩]⟩,
  ⟨3, 1, 1,
    [⟨1, false, 725760⟩, ⟨3, true, 20160⟩],
    [⟨1, false, 11612160000⟩, ⟨3, true, 139345920000⟩]⟩,
  ⟨3, 0, 2,
    [⟨6, true, 8640⟩, ⟨8, false, 161280⟩],
    [⟨6, true, 438939648000⟩, ⟨8, false, 18289152000⟩, ⟨10, false, 493516800⟩]⟩,
  ⟨2, 3, 0,
    [⟨0, true, 3628800⟩, ⟨2, true, 40320⟩, ⟨4, false, 1440⟩],
    [⟨0, true, 1683763200⟩, ⟨2, true, 5225472000⟩, ⟨4, false, 292626432000⟩]⟩,
  ⟨2, 2, 1,
    [⟨5, false, 480⟩, ⟨9, true, 725760⟩],
    [⟨5, false, 877879296000⟩, ⟨9, true, 8709120000⟩]⟩,
  ⟨2, 1, 2,
    [⟨2, false, 161280⟩, ⟨4, true, 2880⟩],
    [⟨0, true, 87091200⟩, ⟨2, false, 33965568000⟩, ⟨4, true, 438939648000⟩]⟩,
  ⟨2, 0, 3,
    [⟨5, true, 1920⟩, ⟨7, false, 40320⟩],
    [⟨5, true, 1316818944000⟩, ⟨7, false, 104509440000⟩, ⟨9, false, 1451520000⟩]⟩,
  ⟨1, 4, 0,
    [⟨6, false, 1440⟩, ⟨8, false, 120960⟩, ⟨10, false, 3628800⟩],
    [⟨6, false, 146313216000⟩, ⟨8, false, 28740096000⟩, ⟨10, false, 1770854400⟩]⟩,
  ⟨1, 3, 1,
    [⟨1, true, 725760⟩, ⟨3, true, 20160⟩],
    [⟨1, true, 11612160000⟩, ⟨3, true, 139345920000⟩]⟩,
  ⟨1, 2, 2,
    [⟨6, true, 2880⟩, ⟨8, true, 161280⟩],
    [⟨6, true, 438939648000⟩, ⟨8, true, 33965568000⟩, ⟨10, true, 87091200⟩]⟩,
  ⟨1, 1, 3,
    [⟨3, false, 40320⟩],
    [⟨3, false, 278691840000⟩]⟩,
  ⟨1, 0, 4,
    [⟨6, false, 11520⟩],
    [⟨6, false, 877879296000⟩, ⟨8, false, 15676416000⟩, ⟨10, true, 406425600⟩]⟩,
  ⟨0, 5, 0,
    [⟨0, false, 3628800⟩, ⟨2, false, 201600⟩, ⟨4, false, 7200⟩],
    [⟨0, false, 1190246400⟩, ⟨2, false, 23514624000⟩, ⟨4, false, 146313216000⟩]⟩,
  ⟨0, 4, 1,
    [⟨5, false, 1440⟩, ⟨7, false, 40320⟩, ⟨9, false, 725760⟩],
    [⟨5, false, 438939648000⟩, ⟨7, false, 104509440000⟩, ⟨9, false, 7257600000⟩]⟩,
  ⟨0, 3, 2,
    [⟨2, true, 161280⟩, ⟨4, true, 8640⟩],
    [⟨0, false, 493516800⟩, ⟨2, true, 18289152000⟩, ⟨4, true, 438939648000⟩]⟩,
  ⟨0, 2, 3,
    [⟨5, true, 1920⟩, ⟨7, true, 40320⟩],
    [⟨5, true, 1316818944000⟩, ⟨7, true, 104509440000⟩, ⟨9, false, 1451520000⟩]⟩,
  ⟨0, 1, 4,
    [⟨4, false, 11520⟩],
    [⟨0, true, 406425600⟩, ⟨2, true, 15676416000⟩, ⟨4, false, 877879296000⟩]⟩,
  ⟨0, 0, 5,
    [⟨5, false, 3840⟩],
    [⟨5, false, 2633637888000⟩, ⟨9, true, 2903040000⟩]⟩]

/-- degree 5: the rows of `V` -/
def certInverse5 : List (List CertEntry) := [
  [⟨0, false, 463⟩, ⟨2, true, 1170⟩, ⟨4, true, 35280⟩],
  [⟨1, false, 16000⟩],
  [⟨0, true, 1170⟩, ⟨2, false, 186300⟩, ⟨4, true, 1360800⟩],
  [⟨3, false, 6912000⟩],
  [⟨0, true, 35280⟩, ⟨2, true, 1360800⟩, ⟨4, false, 76204800⟩],
  [⟨5, false, 685843200⟩, ⟨9, true, 756000⟩],
  [⟨6, false, 76204800⟩, ⟨8, false, 1360800⟩, ⟨10, true, 35280⟩],
  [⟨7, false, 2592000⟩],
  [⟨6, false, 1360800⟩, ⟨8, false, 186300⟩, ⟨10, false, 1170⟩],
  [⟨5, true, 756000⟩, ⟨9, false, 11500⟩],
  [⟨6, true, 35280⟩, ⟨8, false, 1170⟩, ⟨10, false, 463⟩]]

/-- degree 5: the denominator -/
def certDen5 : ℕ := 16855282483200000

/-- degree 6: the rows of `Qᵀ` and `U` -/
def certRows6 : List CertRow := [
  ⟨6, 0, 0,
    [⟨6, true, 14400⟩, ⟨8, false, 604800⟩, ⟨10, true, 21772800⟩, ⟨12, false, 479001600⟩],
    [⟨6, true, 115880067072000⟩, ⟨8, false, 45524312064000⟩, ⟨10, true, 3724716441600⟩, ⟨12, false, 126456422400⟩]⟩,
  ⟨5, 1, 0,
    [⟨0, false, 479001600⟩, ⟨2, true, 14515200⟩, ⟨4, false, 201600⟩],
    [⟨0, false, 195432652800⟩, ⟨2, true, 5058256896000⟩, ⟨4, false, 45524312064000⟩]⟩,
  ⟨5, 0, 1,
    [⟨7, false, 100800⟩, ⟨9, true, 3628800⟩, ⟨11, false, 79833600⟩],
    [⟨7, false, 182097248256000⟩, ⟨9, true, 22762156032000⟩, ⟨11, false, 942675148800⟩]⟩,
  ⟨4, 2, 0,
    [⟨6, true, 2880⟩, ⟨8, false, 40320⟩, ⟨10, false, 7257600⟩, ⟨12, true, 479001600⟩],
    [⟨6, true, 579400335360000⟩, ⟨8, false, 45524312064000⟩, ⟨10, false, 1609445376000⟩, ⟨12, true, 180104601600⟩]⟩,
  ⟨4, 1, 1,
    [⟨1, false, 79833600⟩, ⟨3, true, 2177280⟩, ⟨5, false, 20160⟩],
    [⟨1, false, 1402516684800⟩, ⟨3, true, 27820412928000⟩, ⟨5, false, 182097248256000⟩]⟩,
  ⟨4, 0, 2,
    [⟨6, false, 17280⟩, ⟨8, true, 645120⟩, ⟨10, false, 14515200⟩],
    [⟨6, false, 695280402432000⟩, ⟨8, true, 91048624128000⟩, ⟨10, false, 2115271065600⟩, ⟨12, false, 53648179200⟩]⟩,
  ⟨3, 3, 0,
    [⟨0, true, 479001600⟩, ⟨4, false, 120960⟩],
    [⟨0, true, 222256742400⟩, ⟨4, false, 91048624128000⟩]⟩,
  ⟨3, 2, 1,
    [⟨7, false, 20160⟩, ⟨9, false, 725760⟩, ⟨11, true, 79833600⟩],
    [⟨7, false, 364194496512000⟩, ⟨9, false, 5058256896000⟩, ⟨11, true, 1333540454400⟩]⟩,
  ⟨3, 1, 2,
    [⟨2, false, 14515200⟩, ⟨4, true, 322560⟩],
    [⟨0, false, 26824089600⟩, ⟨2, false, 5058256896000⟩, ⟨4, true, 136572936192000⟩]⟩,
  ⟨3, 0, 3,
    [⟨7, true, 120960⟩, ⟨9, false, 2903040⟩],
    [⟨7, true, 546291744768000⟩, ⟨9, false, 17703899136000⟩, ⟨11, false, 390865305600⟩]⟩,
  ⟨2, 4, 0,
    [⟨6, true, 2880⟩, ⟨8, true, 40320⟩, ⟨10, false, 7257600⟩, ⟨12, false, 479001600⟩],
    [⟨6, true, 579400335360000⟩, ⟨8, true, 45524312064000⟩, ⟨10, false, 1609445376000⟩, ⟨12, false, 180104601600⟩]⟩,
  ⟨2, 3, 1,
    [⟨1, true, 79833600⟩, ⟨3, true, 725760⟩, ⟨5, false, 20160⟩],
    [⟨1, true, 1333540454400⟩, ⟨3, true, 5058256896000⟩, ⟨5, false, 364194496512000⟩]⟩,
  ⟨2, 2, 2,
    [⟨6, false, 5760⟩, ⟨10, true, 14515200⟩],
    [⟨6, false, 1158800670720000⟩, ⟨10, true, 3218890752000⟩]⟩,
  ⟨2, 1, 3,
    [⟨3, false, 2903040⟩, ⟨5, true, 40320⟩],
    [⟨1, true, 68976230400⟩, ⟨3, false, 32878669824000⟩, ⟨5, true, 546291744768000⟩]⟩,
  ⟨2, 0, 4,
    [⟨6, true, 23040⟩, ⟨8, false, 645120⟩],
    [⟨6, true, 1854081073152000⟩, ⟨8, false, 91048624128000⟩, ⟨10, false, 1103619686400⟩, ⟨12, true, 53648179200⟩]⟩,
  ⟨1, 5, 0,
    [⟨0, false, 479001600⟩, ⟨2, false, 14515200⟩, ⟨4, false, 201600⟩],
    [⟨0, false, 195432652800⟩, ⟨2, false, 5058256896000⟩, ⟨4, false, 45524312064000⟩]⟩,
  ⟨1, 4, 1,
    [⟨7, false, 20160⟩, ⟨9, false, 2177280⟩, ⟨11, false, 79833600⟩],
    [⟨7, false, 182097248256000⟩, ⟨9, false, 27820412928000⟩, ⟨11, false, 1402516684800⟩]⟩,
  ⟨1, 3, 2,
    [⟨2, true, 14515200⟩, ⟨4, true, 322560⟩],
    [⟨0, false, 26824089600⟩, ⟨2, true, 5058256896000⟩, ⟨4, true, 136572936192000⟩]⟩,
  ⟨1, 2, 3,
    [⟨7, true, 40320⟩, ⟨9, true, 2903040⟩],
    [⟨7, true, 546291744768000⟩, ⟨9, true, 32878669824000⟩, ⟨11, true, 68976230400⟩]⟩,
  ⟨1, 1, 4,
    [⟨4, false, 645120⟩],
    [⟨0, true, 53648179200⟩, ⟨4, false, 273145872384000⟩]⟩,
  ⟨1, 0, 5,
    [⟨7, false, 161280⟩],
    [⟨7, false, 1092583489536000⟩, ⟨9, false, 15174770688000⟩, ⟨11, true, 321889075200⟩]⟩,
  ⟨0, 6, 0,
    [⟨6, true, 14400⟩, ⟨8, true, 604800⟩, ⟨10, true, 21772800⟩, ⟨12, true, 479001600⟩],
    [⟨6, true, 115880067072000⟩, ⟨8, true, 45524312064000⟩, ⟨10, true, 3724716441600⟩, ⟨12, true, 126456422400⟩]⟩,
  ⟨0, 5, 1,
    [⟨1, false, 79833600⟩, ⟨3, false, 3628800⟩, ⟨5, false, 100800⟩],
    [⟨1, false, 942675148800⟩, ⟨3, false, 22762156032000⟩, ⟨5, false, 182097248256000⟩]⟩,
  ⟨0, 4, 2,
    [⟨6, false, 17280⟩, ⟨8, false, 645120⟩, ⟨10, false, 14515200⟩],
    [⟨6, false, 695280402432000⟩, ⟨8, false, 91048624128000⟩, ⟨10, false, 2115271065600⟩, ⟨12, true, 53648179200⟩]⟩,
  ⟨0, 3, 3,
    [⟨3, true, 2903040⟩, ⟨5, true, 120960⟩],
    [⟨1, false, 390865305600⟩, ⟨3, true, 17703899136000⟩, ⟨5, true, 546291744768000⟩]⟩,
  ⟨0, 2, 4,
    [⟨6, true, 23040⟩, ⟨8, true, 645120⟩],
    [⟨6, true, 1854081073152000⟩, ⟨8, true, 91048624128000⟩, ⟨10, false, 1103619686400⟩, ⟨12, false, 53648179200⟩]⟩,
  ⟨0, 1, 5,
    [⟨5, false, 161280⟩],
    [⟨1, true, 321889075200⟩, ⟨3, true, 15174770688000⟩, ⟨5, false, 1092583489536000⟩]⟩,
  ⟨0, 0, 6,
    [⟨6, false, 46080⟩],
    [⟨6, false, 3708162146304000⟩, ⟨10, true, 2207239372800⟩]⟩]

/-- degree 6: the rows of `V` -/
def certInverse6 : List (List CertEntry) := [
  [⟨0, false, 443⟩, ⟨4, true, 83160⟩],
  [⟨1, false, 16668⟩, ⟨3, true, 51480⟩, ⟨5, true, 1995840⟩],
  [⟨2, false, 348480⟩],
  [⟨1, true, 51480⟩, ⟨3, false, 10018800⟩, ⟨5, true, 94089600⟩],
  [⟨0, true, 83160⟩, ⟨4, false, 423403200⟩],
  [⟨1, true, 1995840⟩, ⟨3, true, 94089600⟩, ⟨5, false, 6774451200⟩],
  [⟨6, false, 80472268800⟩, ⟨10, true, 47900160⟩],
  [⟨7, false, 6774451200⟩, ⟨9, false, 94089600⟩, ⟨11, true, 1995840⟩],
  [⟨8, false, 141134400⟩, ⟨12, true, 83160⟩],
  [⟨7, false, 94089600⟩, ⟨9, false, 10018800⟩, ⟨11, false, 51480⟩],
  [⟨6, true, 47900160⟩, ⟨10, false, 202752⟩],
  [⟨7, true, 1995840⟩, ⟨9, false, 51480⟩, ⟨11, false, 16668⟩],
  [⟨8, true, 83160⟩, ⟨12, false, 369⟩]]

/-- degree 6: the denominator -/
def certDen6 : ℕ := 293686441987276800000

/-- degree 7: the rows of `Qᵀ` and `U` -/
def certRows7 : List CertRow := [
  ⟨7, 0, 0,
    [⟨8, true, 1411200⟩, ⟨10, false, 76204800⟩, ⟨12, true, 3353011200⟩, ⟨14, false, 87178291200⟩],
    [⟨8, true, 753973656403968000⟩, ⟨10, false, 175927186494259200⟩, ⟨12, true, 8948677235097600⟩,
      ⟨14, false, 203997201408000⟩]⟩,
  ⟨6, 1, 0,
    [⟨0, false, 87178291200⟩, ⟨2, true, 2395008000⟩, ⟨4, false, 32659200⟩, ⟨6, true, 201600⟩],
    [⟨0, false, 317677693132800⟩, ⟨2, true, 11741172258816000⟩, ⟨4, false, 192682156636569600⟩,
      ⟨6, true, 753973656403968000⟩]⟩,
  ⟨6, 0, 1,
    [⟨7, true, 201600⟩, ⟨9, false, 10886400⟩, ⟨11, true, 479001600⟩, ⟨13, false, 12454041600⟩],
    [⟨7, true, 3015894625615872000⟩, ⟨9, false, 921523357827072000⟩, ⟨11, true, 61688753705779200⟩,
      ⟨13, false, 1772160303513600⟩]⟩,
  ⟨5, 2, 0,
    [⟨8, true, 201600⟩, ⟨10, true, 3628800⟩, ⟨12, false, 1437004800⟩, ⟨14, true, 87178291200⟩],
    [⟨8, true, 3769868282019840000⟩, ⟨10, false, 142417246209638400⟩, ⟨12, false, 5521524251443200⟩,
      ⟨14, true, 330231367065600⟩]⟩,
  ⟨5, 1, 1,
    [⟨1, false, 12454041600⟩, ⟨3, true, 319334400⟩, ⟨5, false, 3628800⟩],
    [⟨1, false, 2738793196339200⟩, ⟨3, true, 83774850711552000⟩, ⟨5, false, 921523357827072000⟩]⟩,
  ⟨5, 0, 2,
    [⟨8, false, 1612800⟩, ⟨10, true, 72576000⟩, ⟨12, false, 1916006400⟩],
    [⟨8, false, 4523841938423808000⟩, ⟨10, true, 318344432703897600⟩, ⟨12, false, 3427152983654400⟩,
      ⟨14, false, 126234165657600⟩]⟩,
  ⟨4, 3, 0,
    [⟨0, true, 87178291200⟩, ⟨2, false, 479001600⟩, ⟨4, false, 10886400⟩, ⟨6, true, 120960⟩],
    [⟨0, true, 375564078489600⟩, ⟨2, false, 2729029227724800⟩, ⟨4, false, 226192096921190400⟩,
      ⟨6, true, 3769868282019840000⟩]⟩,
  ⟨4, 2, 1,
    [⟨7, true, 40320⟩, ⟨9, false, 725760⟩, ⟨11, false, 159667200⟩, ⟨13, true, 12454041600⟩],
    [⟨7, true, 15079473128079360000⟩, ⟨9, false, 921523357827072000⟩, ⟨11, false, 26655634317312000⟩,
      ⟨13, true, 2523985886822400⟩]⟩,
  ⟨4, 1, 2,
    [⟨2, false, 1916006400⟩, ⟨4, true, 43545600⟩, ⟨6, false, 322560⟩],
    [⟨0, false, 57886385356800⟩, ⟨2, false, 9012143031091200⟩, ⟨4, true, 418874253557760000⟩,
      ⟨6, false, 4523841938423808000⟩]⟩,
  ⟨4, 0, 3,
    [⟨7, false, 241920⟩, ⟨9, true, 11612160⟩, ⟨11, false, 319334400⟩],
    [⟨7, false, 18095367753695232000⟩, ⟨9, true, 1843046715654144000⟩, ⟨11, false, 35033119388467200⟩,
      ⟨13, false, 751825583308800⟩]⟩,
  ⟨3, 4, 0,
    [⟨8, true, 120960⟩, ⟨10, true, 10886400⟩, ⟨12, false, 479001600⟩, ⟨14, false, 87178291200⟩],
    [⟨8, true, 3769868282019840000⟩, ⟨10, true, 226192096921190400⟩, ⟨12, false, 2729029227724800⟩,
      ⟨14, false, 375564078489600⟩]⟩,
  ⟨3, 3, 1,
    [⟨1, true, 12454041600⟩, ⟨5, false, 2177280⟩],
    [⟨1, true, 3114705987993600⟩, ⟨5, false, 1843046715654144000⟩]⟩,
  ⟨3, 2, 2,
    [⟨8, false, 322560⟩, ⟨10, false, 14515200⟩, ⟨12, true, 1916006400⟩],
    [⟨8, false, 7539736564039680000⟩, ⟨10, false, 83774850711552000⟩, ⟨12, true, 8250553479168000⟩,
      ⟨14, true, 45332711424000⟩]⟩,
  ⟨3, 1, 3,
    [⟨3, false, 319334400⟩, ⟨5, true, 5806080⟩],
    [⟨1, false, 375912791654400⟩, ⟨3, false, 83774850711552000⟩, ⟨5, true, 2764570073481216000⟩]⟩,
  ⟨3, 0, 4,
    [⟨8, true, 1935360⟩, ⟨10, false, 58060800⟩],
    [⟨8, true, 12063578502463488000⟩, ⟨10, false, 234569581992345600⟩, ⟨12, false, 4823400495513600⟩,
      ⟨14, true, 80901454233600⟩]⟩,
  ⟨2, 5, 0,
    [⟨0, false, 87178291200⟩, ⟨2, false, 1437004800⟩, ⟨4, false, 3628800⟩, ⟨6, true, 201600⟩],
    [⟨0, false, 330231367065600⟩, ⟨2, false, 5521524251443200⟩, ⟨4, true, 142417246209638400⟩,
      ⟨6, true, 3769868282019840000⟩]⟩,
  ⟨2, 4, 1,
    [⟨7, true, 40320⟩, ⟨9, true, 725760⟩, ⟨11, false, 159667200⟩, ⟨13, false, 12454041600⟩],
    [⟨7, true, 15079473128079360000⟩, ⟨9, true, 921523357827072000⟩, ⟨11, false, 26655634317312000⟩,
      ⟨13, false, 2523985886822400⟩]⟩,
  ⟨2, 3, 2,
    [⟨2, true, 1916006400⟩, ⟨4, true, 14515200⟩, ⟨6, false, 322560⟩],
    [⟨0, false, 45332711424000⟩, ⟨2, true, 8250553479168000⟩, ⟨4, true, 83774850711552000⟩,
      ⟨6, false, 7539736564039680000⟩]⟩,
  ⟨2, 2, 3,
    [⟨7, false, 80640⟩, ⟨11, true, 319334400⟩],
    [⟨7, false, 30158946256158720000⟩, ⟨11, true, 53311268634624000⟩]⟩,
  ⟨2, 1, 4,
    [⟨4, false, 58060800⟩, ⟨6, true, 645120⟩],
    [⟨0, true, 103219096780800⟩, ⟨2, true, 761589551923200⟩, ⟨4, false, 502649104269312000⟩,
      ⟨6, true, 12063578502463488000⟩]⟩,
  ⟨2, 0, 5,
    [⟨7, true, 322560⟩, ⟨9, false, 11612160⟩],
    [⟨7, true, 48254314009853952000⟩, ⟨9, false, 1843046715654144000⟩, ⟨11, false, 18278149246156800⟩,
      ⟨13, true, 751825583308800⟩]⟩,
  ⟨1, 6, 0,
    [⟨8, true, 201600⟩, ⟨10, true, 32659200⟩, ⟨12, true, 2395008000⟩, ⟨14, true, 87178291200⟩],
    [⟨8, true, 753973656403968000⟩, ⟨10, true, 192682156636569600⟩, ⟨12, true, 11741172258816000⟩,
      ⟨14, true, 317677693132800⟩]⟩,
  ⟨1, 5, 1,
    [⟨1, false, 12454041600⟩, ⟨3, false, 319334400⟩, ⟨5, false, 3628800⟩],
    [⟨1, false, 2738793196339200⟩, ⟨3, false, 83774850711552000⟩, ⟨5, false, 921523357827072000⟩]⟩,
  ⟨1, 4, 2,
    [⟨8, false, 322560⟩, ⟨10, false, 43545600⟩, ⟨12, false, 1916006400⟩],
    [⟨8, false, 4523841938423808000⟩, ⟨10, false, 418874253557760000⟩, ⟨12, false, 9012143031091200⟩,
      ⟨14, true, 57886385356800⟩]⟩,
  ⟨1, 3, 3,
    [⟨3, true, 319334400⟩, ⟨5, true, 5806080⟩],
    [⟨1, false, 375912791654400⟩, ⟨3, true, 83774850711552000⟩, ⟨5, true, 2764570073481216000⟩]⟩,
  ⟨1, 2, 4,
    [⟨8, true, 645120⟩, ⟨10, true, 58060800⟩],
    [⟨8, true, 12063578502463488000⟩, ⟨10, true, 502649104269312000⟩, ⟨12, true, 761589551923200⟩,
      ⟨14, false, 103219096780800⟩]⟩,
  ⟨1, 1, 5,
    [⟨5, false, 11612160⟩],
    [⟨1, true, 751825583308800⟩, ⟨5, false, 5529140146962432000⟩]⟩,
  ⟨1, 0, 6,
    [⟨8, false, 2580480⟩],
    [⟨8, false, 24127157004926976000⟩, ⟨10, false, 268079522276966400⟩, ⟨12, true, 4061810943590400⟩,
      ⟨14, true, 22317642547200⟩]⟩,
  ⟨0, 7, 0,
    [⟨0, true, 87178291200⟩, ⟨2, true, 3353011200⟩, ⟨4, true, 76204800⟩, ⟨6, true, 1411200⟩],
    [⟨0, true, 203997201408000⟩, ⟨2, true, 8948677235097600⟩, ⟨4, true, 175927186494259200⟩,
      ⟨6, true, 753973656403968000⟩]⟩,
  ⟨0, 6, 1,
    [⟨7, true, 201600⟩, ⟨9, true, 10886400⟩, ⟨11, true, 479001600⟩, ⟨13, true, 12454041600⟩],
    [⟨7, true, 3015894625615872000⟩, ⟨9, true, 921523357827072000⟩, ⟨11, true, 61688753705779200⟩,
      ⟨13, true, 1772160303513600⟩]⟩,
  ⟨0, 5, 2,
    [⟨2, false, 1916006400⟩, ⟨4, false, 72576000⟩, ⟨6, false, 1612800⟩],
    [⟨0, true, 126234165657600⟩, ⟨2, false, 3427152983654400⟩, ⟨4, false, 318344432703897600⟩,
      ⟨6, false, 4523841938423808000⟩]⟩,
  ⟨0, 4, 3,
    [⟨7, false, 241920⟩, ⟨9, false, 11612160⟩, ⟨11, false, 319334400⟩],
    [⟨7, false, 18095367753695232000⟩, ⟨9, false, 1843046715654144000⟩, ⟨11, false, 35033119388467200⟩,
      ⟨13, true, 751825583308800⟩]⟩,
  ⟨0, 3, 4,
    [⟨4, true, 58060800⟩, ⟨6, true, 1935360⟩],
    [⟨0, false, 80901454233600⟩, ⟨2, false, 4823400495513600⟩, ⟨4, true, 234569581992345600⟩,
      ⟨6, true, 12063578502463488000⟩]⟩,
  ⟨0, 2, 5,
    [⟨7, true, 322560⟩, ⟨9, true, 11612160⟩],
    [⟨7, true, 48254314009853952000⟩, ⟨9, true, 1843046715654144000⟩, ⟨11, false, 18278149246156800⟩,
      ⟨13, false, 751825583308800⟩]⟩,
  ⟨0, 1, 6,
    [⟨6, false, 2580480⟩],
    [⟨0, false, 22317642547200⟩, ⟨2, true, 4061810943590400⟩, ⟨4, true, 268079522276966400⟩,
      ⟨6, false, 24127157004926976000⟩]⟩,
  ⟨0, 0, 7,
    [⟨7, false, 645120⟩],
    [⟨7, false, 96508628019707904000⟩, ⟨11, true, 36556298492313600⟩]⟩]

/-- degree 7: the rows of `V` -/
def certInverse7 : List (List CertEntry) := [
  [⟨0, false, 4034⟩, ⟨2, true, 9464⟩, ⟨4, true, 1681680⟩, ⟨6, false, 8648640⟩],
  [⟨1, false, 238777⟩, ⟨5, true, 64744680⟩],
  [⟨0, true, 9464⟩, ⟨2, false, 4272996⟩, ⟨4, true, 30606576⟩, ⟨6, true, 1574052480⟩],
  [⟨3, false, 262342080⟩],
  [⟨0, true, 1681680⟩, ⟨2, true, 30606576⟩, ⟨4, false, 7502983488⟩, ⟨6, true, 103887463680⟩],
  [⟨1, true, 64744680⟩, ⟨5, false, 476150875200⟩],
  [⟨0, false, 8648640⟩, ⟨2, true, 1574052480⟩, ⟨4, true, 103887463680⟩, ⟨6, false, 9349871731200⟩],
  [⟨7, false, 149597947699200⟩, ⟨11, true, 56665889280⟩],
  [⟨8, false, 9349871731200⟩, ⟨10, false, 103887463680⟩, ⟨12, true, 1574052480⟩, ⟨14, true, 8648640⟩],
  [⟨9, false, 158716958400⟩, ⟨13, true, 64744680⟩],
  [⟨8, false, 103887463680⟩, ⟨10, false, 7502983488⟩, ⟨12, false, 30606576⟩, ⟨14, true, 1681680⟩],
  [⟨7, true, 56665889280⟩, ⟨11, false, 152635392⟩],
  [⟨8, true, 1574052480⟩, ⟨10, false, 30606576⟩, ⟨12, false, 4272996⟩, ⟨14, false, 9464⟩],
  [⟨9, true, 64744680⟩, ⟨13, false, 198891⟩],
  [⟨8, true, 8648640⟩, ⟨10, true, 1681680⟩, ⟨12, false, 9464⟩, ⟨14, false, 4034⟩]]

/-- degree 7: the denominator -/
def certDen7 : ℕ := 107008766748252123955200000

/-- degree 8: the rows of `Qᵀ` and `U` -/
def certRows8 : List CertRow := [
  ⟨8, 0, 0,
    [⟨8, false, 2822400⟩, ⟨10, true, 203212800⟩, ⟨12, false, 13412044800⟩, ⟨14, true, 697426329600⟩,
      ⟨16, false, 20922789888000⟩],
    [⟨8, true, 6369569449300721664000000⟩, ⟨10, true, 2972465743007003443200000⟩,
      ⟨12, false, 299176746861094502400000⟩, ⟨14, true, 10022049832815820800000⟩, ⟨16, false, 168875369390407680000⟩]⟩,
  ⟨7, 1, 0,
    [⟨0, false, 20922789888000⟩, ⟨2, true, 523069747200⟩, ⟨4, false, 6706022400⟩, ⟨6, true, 50803200⟩],
    [⟨0, false, 266429802139877376000⟩, ⟨2, true, 13934136176085565440000⟩, ⟨4, false, 342283934043230699520000⟩,
      ⟨6, true, 2053703604259384197120000⟩]⟩,
  ⟨7, 0, 1,
    [⟨9, true, 25401600⟩, ⟨11, false, 1676505600⟩, ⟨13, true, 87178291200⟩, ⟨15, false, 2615348736000⟩],
    [⟨9, true, 10268518021296920985600000⟩, ⟨11, false, 1960353440429412188160000⟩,
      ⟨13, true, 84374186538628546560000⟩, ⟨15, false, 1666967211249500160000⟩]⟩,
  ⟨6, 2, 0,
    [⟨8, false, 403200⟩, ⟨10, true, 14515200⟩, ⟨12, true, 1916006400⟩, ⟨14, false, 348713164800⟩,
      ⟨16, true, 20922789888000⟩],
    [⟨8, false, 70065263942307938304000000⟩, ⟨10, true, 8917397229021010329600000⟩,
      ⟨12, false, 131895124960267468800000⟩, ⟨14, false, 7547469627182284800000⟩, ⟨16, true, 290394933059911680000⟩]⟩,
  ⟨6, 1, 1,
    [⟨1, false, 2615348736000⟩, ⟨3, true, 62270208000⟩, ⟨5, false, 718502400⟩, ⟨7, true, 3628800⟩],
    [⟨1, false, 2595909622988537856000⟩, ⟨3, true, 110703719926569369600000⟩, ⟨5, false, 2147053768089356206080000⟩,
      ⟨7, true, 10268518021296920985600000⟩]⟩,
  ⟨6, 0, 2,
    [⟨8, true, 3225600⟩, ⟨10, false, 217728000⟩, ⟨12, true, 11496038400⟩, ⟨14, false, 348713164800⟩],
    [⟨8, true, 63695694493007216640000000⟩, ⟨10, false, 11889862972028013772800000⟩,
      ⟨12, true, 431071871821361971200000⟩, ⟨14, false, 2474580205633536000000⟩, ⟨16, false, 121519563669504000000⟩]⟩,
  ⟨5, 3, 0,
    [⟨0, true, 20922789888000⟩, ⟨2, false, 174356582400⟩, ⟨4, false, 958003200⟩, ⟨6, true, 21772800⟩],
    [⟨0, true, 360463849953951744000⟩, ⟨2, false, 5556557370831667200000⟩, ⟨4, false, 342283934043230699520000⟩,
      ⟨6, true, 10268518021296920985600000⟩]⟩,
  ⟨5, 2, 1,
    [⟨9, true, 3628800⟩, ⟨11, true, 79833600⟩, ⟨13, false, 37362124800⟩, ⟨15, true, 2615348736000⟩],
    [⟨9, true, 51342590106484604928000000⟩, ⟨11, false, 1586952785109524152320000⟩,
      ⟨13, false, 52060668289792081920000⟩, ⟨15, true, 2698492220603891712000⟩]⟩,
  ⟨5, 1, 2,
    [⟨2, false, 348713164800⟩, ⟨4, true, 7664025600⟩, ⟨6, false, 72576000⟩],
    [⟨0, false, 94034047814074368000⟩, ⟨2, false, 8377578805253898240000⟩, ⟨4, true, 684567868086461399040000⟩,
      ⟨6, false, 12322221625556305182720000⟩]⟩,
  ⟨5, 0, 3,
    [⟨9, false, 29030400⟩, ⟨11, true, 1596672000⟩, ⟨13, false, 49816166400⟩],
    [⟨9, false, 61611108127781525913600000⟩, ⟨11, true, 3547306225538936340480000⟩,
      ⟨13, false, 32313518248836464640000⟩, ⟨15, false, 1031525009354391552000⟩]⟩,
  ⟨4, 4, 0,
    [⟨8, false, 241920⟩, ⟨12, true, 1916006400⟩, ⟨16, false, 20922789888000⟩],
    [⟨8, false, 152869666783217319936000000⟩, ⟨12, true, 334563243801654067200000⟩,
      ⟨16, false, 335246699287019520000⟩]⟩,
  ⟨4, 3, 1,
    [⟨1, true, 2615348736000⟩, ⟨3, false, 12454041600⟩, ⟨5, false, 239500800⟩, ⟨7, true, 2177280⟩],
    [⟨1, true, 3068929378659336192000⟩, ⟨3, false, 25731134901851258880000⟩, ⟨5, false, 2520454423409244241920000⟩,
      ⟨7, true, 51342590106484604928000000⟩]⟩,
  ⟨4, 2, 2,
    [⟨8, true, 645120⟩, ⟨10, false, 14515200⟩, ⟨12, false, 3832012800⟩, ⟨14, true, 348713164800⟩],
    [⟨8, true, 222934930725525258240000000⟩, ⟨10, false, 8917397229021010329600000⟩,
      ⟨12, false, 202668118841386598400000⟩, ⟨14, true, 7547469627182284800000⟩, ⟨16, true, 44851766227107840000⟩]⟩,
  ⟨4, 1, 3,
    [⟨3, false, 49816166400⟩, ⟨5, true, 958003200⟩, ⟨7, false, 5806080⟩],
    [⟨1, false, 473019755670798336000⟩, ⟨3, false, 84972585024718110720000⟩, ⟨5, true, 4667508191498600448000000⟩,
      ⟨7, false, 61611108127781525913600000⟩]⟩,
  ⟨4, 0, 4,
    [⟨8, false, 3870720⟩, ⟨10, true, 232243200⟩, ⟨12, false, 7664025600⟩],
    [⟨8, false, 286630625218532474880000000⟩, ⟨10, true, 20807260201049024102400000⟩,
      ⟨12, false, 228403752979975372800000⟩, ⟨14, false, 5072889421548748800000⟩, ⟨16, true, 76667797442396160000⟩]⟩,
  ⟨3, 5, 0,
    [⟨0, false, 20922789888000⟩, ⟨2, false, 174356582400⟩, ⟨4, true, 958003200⟩, ⟨6, true, 21772800⟩],
    [⟨0, false, 360463849953951744000⟩, ⟨2, false, 5556557370831667200000⟩, ⟨4, true, 342283934043230699520000⟩,
      ⟨6, true, 10268518021296920985600000⟩]⟩,
  ⟨3, 4, 1,
    [⟨9, true, 2177280⟩, ⟨11, true, 239500800⟩, ⟨13, false, 12454041600⟩, ⟨15, false, 2615348736000⟩],
    [⟨9, true, 51342590106484604928000000⟩, ⟨11, true, 2520454423409244241920000⟩,
      ⟨13, false, 25731134901851258880000⟩, ⟨15, false, 3068929378659336192000⟩]⟩,
  ⟨3, 3, 2,
    [⟨2, true, 348713164800⟩, ⟨6, false, 43545600⟩],
    [⟨2, true, 11113114741663334400000⟩, ⟨6, false, 20537036042593841971200000⟩]⟩,
  ⟨3, 2, 3,
    [⟨9, false, 5806080⟩, ⟨11, false, 319334400⟩, ⟨13, true, 49816166400⟩],
    [⟨9, false, 102685180212969209856000000⟩, ⟨11, false, 933501638299720089600000⟩,
      ⟨13, true, 77791803191643340800000⟩, ⟨15, true, 370437158055444480000⟩]⟩,
  ⟨3, 1, 4,
    [⟨4, false, 7664025600⟩, ⟨6, true, 116121600⟩],
    [⟨0, true, 94034047814074368000⟩, ⟨2, false, 2735535936409436160000⟩, ⟨4, false, 684567868086461399040000⟩,
      ⟨6, true, 32859257668150147153920000⟩]⟩,
  ⟨3, 0, 5,
    [⟨9, true, 34836480⟩, ⟨11, false, 1277337600⟩],
    [⟨9, true, 164296288340750735769600000⟩, ⟨11, false, 2613804587239216250880000⟩,
      ⟨13, false, 45478284942806876160000⟩, ⟨15, true, 661087851298947072000⟩]⟩,
  ⟨2, 6, 0,
    [⟨8, false, 403200⟩, ⟨10, false, 14515200⟩, ⟨12, true, 1916006400⟩, ⟨14, true, 348713164800⟩,
      ⟨16, true, 20922789888000⟩],
    [⟨8, false, 70065263942307938304000000⟩, ⟨10, false, 8917397229021010329600000⟩,
      ⟨12, false, 131895124960267468800000⟩, ⟨14, true, 7547469627182284800000⟩, ⟨16, true, 290394933059911680000⟩]⟩,
  ⟨2, 5, 1,
    [⟨1, false, 2615348736000⟩, ⟨3, false, 37362124800⟩, ⟨5, false, 79833600⟩, ⟨7, true, 3628800⟩],
    [⟨1, false, 2698492220603891712000⟩, ⟨3, false, 52060668289792081920000⟩, ⟨5, true, 1586952785109524152320000⟩,
      ⟨7, true, 51342590106484604928000000⟩]⟩,
  ⟨2, 4, 2,
    [⟨8, true, 645120⟩, ⟨10, true, 14515200⟩, ⟨12, false, 3832012800⟩, ⟨14, false, 348713164800⟩],
    [⟨8, true, 222934930725525258240000000⟩, ⟨10, true, 8917397229021010329600000⟩,
      ⟨12, false, 202668118841386598400000⟩, ⟨14, false, 7547469627182284800000⟩, ⟨16, true, 44851766227107840000⟩]⟩,
  ⟨2, 3, 3,
    [⟨3, true, 49816166400⟩, ⟨5, true, 319334400⟩, ⟨7, false, 5806080⟩],
    [⟨1, false, 370437158055444480000⟩, ⟨3, true, 77791803191643340800000⟩, ⟨5, true, 933501638299720089600000⟩,
      ⟨7, false, 102685180212969209856000000⟩]⟩,
  ⟨2, 2, 4,
    [⟨8, false, 1290240⟩, ⟨12, true, 7664025600⟩],
    [⟨8, false, 445869861451050516480000000⟩, ⟨12, true, 405336237682773196800000⟩,
      ⟨16, false, 89703532454215680000⟩]⟩,
  ⟨2, 1, 5,
    [⟨5, false, 1277337600⟩, ⟨7, true, 11612160⟩],
    [⟨1, true, 843456913726242816000⟩, ⟨3, true, 7180781833074769920000⟩, ⟨5, false, 5601009829798320537600000⟩,
      ⟨7, true, 164296288340750735769600000⟩]⟩,
  ⟨2, 0, 6,
    [⟨8, true, 5160960⟩, ⟨10, false, 232243200⟩],
    [⟨8, true, 732500486669582991360000000⟩, ⟨10, false, 20807260201049024102400000⟩,
      ⟨12, false, 176932484702797824000000⟩, ⟨14, true, 5072889421548748800000⟩, ⟨16, true, 13035735011819520000⟩]⟩,
  ⟨1, 7, 0,
    [⟨0, true, 20922789888000⟩, ⟨2, true, 523069747200⟩, ⟨4, true, 6706022400⟩, ⟨6, true, 50803200⟩],
    [⟨0, true, 266429802139877376000⟩, ⟨2, true, 13934136176085565440000⟩, ⟨4, true, 342283934043230699520000⟩,
      ⟨6, true, 2053703604259384197120000⟩]⟩,
  ⟨1, 6, 1,
    [⟨9, true, 3628800⟩, ⟨11, true, 718502400⟩, ⟨13, true, 62270208000⟩, ⟨15, true, 2615348736000⟩],
    [⟨9, true, 10268518021296920985600000⟩, ⟨11, true, 2147053768089356206080000⟩,
      ⟨13, true, 110703719926569369600000⟩, ⟨15, true, 2595909622988537856000⟩]⟩,
  ⟨1, 5, 2,
    [⟨2, false, 348713164800⟩, ⟨4, false, 7664025600⟩, ⟨6, false, 72576000⟩],
    [⟨0, true, 94034047814074368000⟩, ⟨2, false, 8377578805253898240000⟩, ⟨4, false, 684567868086461399040000⟩,
      ⟨6, false, 12322221625556305182720000⟩]⟩,
  ⟨1, 4, 3,
    [⟨9, false, 5806080⟩, ⟨11, false, 958003200⟩, ⟨13, false, 49816166400⟩],
    [⟨9, false, 61611108127781525913600000⟩, ⟨11, false, 4667508191498600448000000⟩,
      ⟨13, false, 84972585024718110720000⟩, ⟨15, true, 473019755670798336000⟩]⟩,
  ⟨1, 3, 4,
    [⟨4, true, 7664025600⟩, ⟨6, true, 116121600⟩],
    [⟨0, false, 94034047814074368000⟩, ⟨2, false, 2735535936409436160000⟩, ⟨4, true, 684567868086461399040000⟩,
      ⟨6, true, 32859257668150147153920000⟩]⟩,
  ⟨1, 2, 5,
    [⟨9, true, 11612160⟩, ⟨11, true, 1277337600⟩],
    [⟨9, true, 164296288340750735769600000⟩, ⟨11, true, 5601009829798320537600000⟩,
      ⟨13, true, 7180781833074769920000⟩, ⟨15, false, 843456913726242816000⟩]⟩,
  ⟨1, 1, 6,
    [⟨6, false, 232243200⟩],
    [⟨2, true, 5471071872818872320000⟩, ⟨6, false, 65718515336300294307840000⟩]⟩,
  ⟨1, 0, 7,
    [⟨9, false, 46448640⟩],
    [⟨9, false, 328592576681501471539200000⟩, ⟨11, false, 2987205242559104286720000⟩,
      ⟨13, true, 38297503109732106240000⟩, ⟨15, true, 182369062427295744000⟩]⟩,
  ⟨0, 8, 0,
    [⟨8, false, 2822400⟩, ⟨10, false, 203212800⟩, ⟨12, false, 13412044800⟩, ⟨14, false, 697426329600⟩,
      ⟨16, false, 20922789888000⟩],
    [⟨8, true, 6369569449300721664000000⟩, ⟨10, false, 2972465743007003443200000⟩,
      ⟨12, false, 299176746861094502400000⟩, ⟨14, false, 10022049832815820800000⟩,
      ⟨16, false, 168875369390407680000⟩]⟩,
  ⟨0, 7, 1,
    [⟨1, true, 2615348736000⟩, ⟨3, true, 87178291200⟩, ⟨5, true, 1676505600⟩, ⟨7, true, 25401600⟩],
    [⟨1, true, 1666967211249500160000⟩, ⟨3, true, 84374186538628546560000⟩, ⟨5, true, 1960353440429412188160000⟩,
      ⟨7, true, 10268518021296920985600000⟩]⟩,
  ⟨0, 6, 2,
    [⟨8, true, 3225600⟩, ⟨10, true, 217728000⟩, ⟨12, true, 11496038400⟩, ⟨14, true, 348713164800⟩],
    [⟨8, true, 63695694493007216640000000⟩, ⟨10, true, 11889862972028013772800000⟩,
      ⟨12, true, 431071871821361971200000⟩, ⟨14, true, 2474580205633536000000⟩, ⟨16, false, 121519563669504000000⟩]⟩,
  ⟨0, 5, 3,
    [⟨3, false, 49816166400⟩, ⟨5, false, 1596672000⟩, ⟨7, false, 29030400⟩],
    [⟨1, true, 1031525009354391552000⟩, ⟨3, false, 32313518248836464640000⟩, ⟨5, false, 3547306225538936340480000⟩,
      ⟨7, false, 61611108127781525913600000⟩]⟩,
  ⟨0, 4, 4,
    [⟨8, false, 3870720⟩, ⟨10, false, 232243200⟩, ⟨12, false, 7664025600⟩],
    [⟨8, false, 286630625218532474880000000⟩, ⟨10, false, 20807260201049024102400000⟩,
      ⟨12, false, 228403752979975372800000⟩, ⟨14, true, 5072889421548748800000⟩, ⟨16, true, 76667797442396160000⟩]⟩,
  ⟨0, 3, 5,
    [⟨5, true, 1277337600⟩, ⟨7, true, 34836480⟩],
    [⟨1, false, 661087851298947072000⟩, ⟨3, false, 45478284942806876160000⟩, ⟨5, true, 2613804587239216250880000⟩,
      ⟨7, true, 164296288340750735769600000⟩]⟩,
  ⟨0, 2, 6,
    [⟨8, true, 5160960⟩, ⟨10, true, 232243200⟩],
    [⟨8, true, 732500486669582991360000000⟩, ⟨10, true, 20807260201049024102400000⟩,
      ⟨12, false, 176932484702797824000000⟩, ⟨14, false, 5072889421548748800000⟩, ⟨16, true, 13035735011819520000⟩]⟩,
  ⟨0, 1, 7,
    [⟨7, false, 46448640⟩],
    [⟨1, false, 182369062427295744000⟩, ⟨3, true, 38297503109732106240000⟩, ⟨5, true, 2987205242559104286720000⟩,
      ⟨7, false, 328592576681501471539200000⟩]⟩,
  ⟨0, 0, 8,
    [⟨8, false, 10321920⟩],
    [⟨8, false, 1465000973339165982720000000⟩, ⟨12, true, 353864969405595648000000⟩,
      ⟨16, false, 26071470023639040000⟩]⟩]

/-- degree 8: the rows of `V` -/
def certInverse8 : List (List CertEntry) := [
  [⟨0, false, 16666496⟩, ⟨4, true, 12269537280⟩],
  [⟨1, false, 1098797056⟩, ⟨3, true, 2974433280⟩, ⟨5, true, 624630988800⟩, ⟨7, false, 3926251929600⟩],
  [⟨2, false, 28927180800⟩, ⟨6, true, 23557511577600⟩],
  [⟨1, true, 2974433280⟩, ⟨3, false, 1549565337600⟩, ⟨5, true, 13117250764800⟩, ⟨7, true, 824512905216000⟩],
  [⟨0, true, 12269537280⟩, ⟨4, false, 89322231398400⟩],
  [⟨1, true, 624630988800⟩, ⟨3, true, 13117250764800⟩, ⟨5, false, 3800254935859200⟩, ⟨7, true, 64312006606848000⟩],
  [⟨2, true, 23557511577600⟩, ⟨6, false, 282972829070131200⟩],
  [⟨1, false, 3926251929600⟩, ⟨3, true, 824512905216000⟩, ⟨5, true, 64312006606848000⟩,
    ⟨7, false, 7074320726753280000⟩],
  [⟨8, false, 141931052879616000000⟩, ⟨12, true, 34282863014400000⟩, ⟨16, false, 2525835312000⟩],
  [⟨9, false, 7074320726753280000⟩, ⟨11, false, 64312006606848000⟩, ⟨13, true, 824512905216000⟩,
    ⟨15, true, 3926251929600⟩],
  [⟨10, false, 89592548677632000⟩, ⟨14, true, 21843005184000⟩],
  [⟨9, false, 64312006606848000⟩, ⟨11, false, 3800254935859200⟩, ⟨13, false, 13117250764800⟩,
    ⟨15, true, 624630988800⟩],
  [⟨8, true, 34282863014400000⟩, ⟨12, false, 47116637568000⟩, ⟨16, true, 11279268000⟩],
  [⟨9, true, 824512905216000⟩, ⟨11, false, 13117250764800⟩, ⟨13, false, 1549565337600⟩, ⟨15, false, 2974433280⟩],
  [⟨10, true, 21843005184000⟩, ⟨14, false, 20734560000⟩],
  [⟨9, true, 3926251929600⟩, ⟨11, true, 624630988800⟩, ⟨13, false, 2974433280⟩, ⟨15, false, 1098797056⟩],
  [⟨8, false, 2525835312000⟩, ⟨12, true, 11279268000⟩, ⟨16, false, 14960935⟩]]

/-- degree 8: the denominator -/
def certDen8 : ℕ := 26232728329760315878271877120000000

/-- degree 9: the rows of `Qᵀ` and `U` -/
def certRows9 : List CertRow := [
  ⟨9, 0, 0,
    [⟨10, false, 457228800⟩, ⟨12, true, 40236134400⟩, ⟨14, false, 3138418483200⟩, ⟨16, true, 188305108992000⟩,
      ⟨18, false, 6402373705728000⟩],
    [⟨10, true, 79522800660629649830707200000⟩, ⟨12, true, 25905154760659658656972800000⟩,
      ⟨14, false, 1704722042133877358592000000⟩, ⟨16, true, 39818224398385954160640000⟩,
      ⟨18, false, 489985440066982379520000⟩]⟩,
  ⟨8, 1, 0,
    [⟨0, false, 6402373705728000⟩, ⟨2, true, 146459529216000⟩, ⟨4, false, 1743565824000⟩, ⟨6, true, 13412044800⟩,
      ⟨8, false, 50803200⟩],
    [⟨0, false, 800446272665765806080000⟩, ⟨2, true, 55182790376841774366720000⟩,
      ⟨4, false, 1982773792695519490867200000⟩, ⟨6, true, 24700263841559209417113600000⟩,
      ⟨8, true, 79522800660629649830707200000⟩]⟩,
  ⟨8, 0, 1,
    [⟨9, false, 50803200⟩, ⟨11, true, 4470681600⟩, ⟨13, false, 348713164800⟩, ⟨15, true, 20922789888000⟩,
      ⟨17, false, 711374856192000⟩],
    [⟨9, true, 397614003303148249153536000000⟩, ⟨11, true, 151816255806656604222259200000⟩,
      ⟨13, false, 12929406401116359150796800000⟩, ⟨15, true, 375369863258216878571520000⟩,
      ⟨17, false, 5580993207614193008640000⟩]⟩,
  ⟨7, 2, 0,
    [⟨10, false, 50803200⟩, ⟨14, true, 697426329600⟩, ⟨16, false, 104613949440000⟩, ⟨18, true, 6402373705728000⟩],
    [⟨10, false, 874750807266926148137779200000⟩, ⟨12, true, 69281227848275831291904000000⟩,
      ⟨14, false, 433628325280656182476800000⟩, ⟨16, false, 37142527989211421736960000⟩,
      ⟨18, true, 944949383773736140800000⟩]⟩,
  ⟨7, 1, 1,
    [⟨1, false, 711374856192000⟩, ⟨3, true, 15692092416000⟩, ⟨5, false, 174356582400⟩, ⟨7, true, 1117670400⟩],
    [⟨1, false, 8804972101118667522048000⟩, ⟨3, true, 521894709993579202215936000⟩,
      ⟨5, false, 14792353129879361437040640000⟩, ⟨7, true, 104891231284599108371742720000⟩]⟩,
  ⟨7, 0, 2,
    [⟨10, true, 508032000⟩, ⟨12, false, 40236134400⟩, ⟨14, true, 2440992153600⟩, ⟨16, false, 83691159552000⟩],
    [⟨10, true, 795228006606296498307072000000⟩, ⟨12, false, 95186382608935489948876800000⟩,
      ⟨14, true, 2138350367414533541068800000⟩, ⟨16, false, 2675696409174532423680000⟩,
      ⟨18, false, 454963943706753761280000⟩]⟩,
  ⟨6, 3, 0,
    [⟨0, true, 6402373705728000⟩, ⟨2, false, 62768369664000⟩, ⟨6, true, 3832012800⟩, ⟨8, false, 21772800⟩],
    [⟨0, true, 1164543631221656125440000⟩, ⟨2, false, 30053311729852093562880000⟩,
      ⟨4, false, 1267783576965582579302400000⟩, ⟨6, true, 82535027958380772930355200000⟩,
      ⟨8, false, 874750807266926148137779200000⟩]⟩,
  ⟨6, 2, 1,
    [⟨9, false, 7257600⟩, ⟨11, true, 319334400⟩, ⟨13, true, 49816166400⟩, ⟨15, false, 10461394944000⟩,
      ⟨17, true, 711374856192000⟩],
    [⟨9, false, 4373754036334630740688896000000⟩, ⟨11, true, 455448767419969812666777600000⟩,
      ⟨13, false, 5700060886513663711641600000⟩, ⟨15, false, 282685946404336167813120000⟩,
      ⟨17, true, 9596971747763961200640000⟩]⟩,
  ⟨6, 1, 2,
    [⟨2, false, 83691159552000⟩, ⟨4, true, 1743565824000⟩, ⟨6, false, 17244057600⟩, ⟨8, true, 72576000⟩],
    [⟨0, false, 364097358555890319360000⟩, ⟨2, false, 25129478646989680803840000⟩,
      ⟨4, true, 3250557369661102070169600000⟩, ⟨6, false, 107235291799939982347468800000⟩,
      ⟨8, true, 795228006606296498307072000000⟩]⟩,
  ⟨6, 0, 3,
    [⟨9, true, 58060800⟩, ⟨11, false, 4790016000⟩, ⟨13, true, 298896998400⟩, ⟨15, false, 10461394944000⟩],
    [⟨9, true, 3976140033031482491535360000000⟩, ⟨11, false, 607265023226626416889036800000⟩,
      ⟨13, true, 18629467287630022862438400000⟩, ⟨15, false, 92683916853880710758400000⟩,
      ⟨17, false, 4015978540149768192000000⟩]⟩,
  ⟨5, 4, 0,
    [⟨10, false, 21772800⟩, ⟨12, false, 1916006400⟩, ⟨14, true, 348713164800⟩, ⟨16, true, 20922789888000⟩,
      ⟨18, false, 6402373705728000⟩],
    [⟨10, false, 1908547215855111595936972800000⟩, ⟨12, false, 14458691029205390878310400000⟩,
      ⟨14, true, 1986083932583158087680000000⟩, ⟨16, true, 8275349719096492032000000⟩,
      ⟨18, false, 1203982253248940605440000⟩]⟩,
  ⟨5, 3, 1,
    [⟨1, true, 711374856192000⟩, ⟨3, false, 5230697472000⟩, ⟨5, false, 24908083200⟩, ⟨7, true, 479001600⟩],
    [⟨1, true, 11912609313278197235712000⟩, ⟨3, false, 208117522390077595975680000⟩,
      ⟨5, false, 14792353129879361437040640000⟩, ⟨7, true, 524456156422995541858713600000⟩]⟩,
  ⟨5, 2, 2,
    [⟨10, true, 72576000⟩, ⟨12, true, 1916006400⟩, ⟨14, false, 1046139494400⟩, ⟨16, true, 83691159552000⟩],
    [⟨10, true, 2783298023122037744074752000000⟩, ⟨12, false, 54822536819070440413593600000⟩,
      ⟨14, false, 1552455607302501905203200000⟩, ⟨16, true, 28867178270114929704960000⟩,
      ⟨18, true, 259032869475204464640000⟩]⟩,
  ⟨5, 1, 3,
    [⟨3, false, 10461394944000⟩, ⟨5, true, 199264665600⟩, ⟨7, false, 1596672000⟩],
    [⟨1, false, 3107637212159529713664000⟩, ⟨3, false, 313777187603501606240256000⟩,
      ⟨5, true, 29584706259758722874081280000⟩, ⟨7, false, 629347387707594650230456320000⟩]⟩,
  ⟨5, 0, 4,
    [⟨10, false, 580608000⟩, ⟨12, true, 38320128000⟩, ⟨14, false, 1394852659200⟩],
    [⟨10, false, 3578526029728334242381824000000⟩, ⟨12, true, 150008919428005930362470400000⟩,
      ⟨14, false, 585894760112031635865600000⟩, ⟨16, false, 26191481860940397281280000⟩,
      ⟨18, true, 195931074231549296640000⟩]⟩,
  ⟨4, 5, 0,
    [⟨0, false, 6402373705728000⟩, ⟨2, false, 20922789888000⟩, ⟨4, true, 348713164800⟩, ⟨6, true, 1916006400⟩,
      ⟨8, false, 21772800⟩],
    [⟨0, false, 1203982253248940605440000⟩, ⟨2, false, 8275349719096492032000000⟩,
      ⟨4, true, 1986083932583158087680000000⟩, ⟨6, true, 14458691029205390878310400000⟩,
      ⟨8, false, 1908547215855111595936972800000⟩]⟩,
  ⟨4, 4, 1,
    [⟨9, false, 4354560⟩, ⟨13, true, 49816166400⟩, ⟨17, false, 711374856192000⟩],
    [⟨9, false, 9542736079275557979684864000000⟩, ⟨13, true, 14458691029205390878310400000⟩,
      ⟨17, false, 11079232918037421096960000⟩]⟩,
  ⟨4, 3, 2,
    [⟨2, true, 83691159552000⟩, ⟨4, false, 348713164800⟩, ⟨6, false, 5748019200⟩, ⟨8, true, 43545600⟩],
    [⟨0, true, 39438622027284480000000⟩, ⟨2, true, 38328661448948585594880000⟩,
      ⟨4, false, 718300355617575508377600000⟩, ⟨6, false, 96993718987586163808665600000⟩,
      ⟨8, true, 2783298023122037744074752000000⟩]⟩,
  ⟨4, 2, 3,
    [⟨9, true, 11612160⟩, ⟨11, false, 319334400⟩, ⟨13, false, 99632332800⟩, ⟨15, true, 10461394944000⟩],
    [⟨9, true, 13916490115610188720373760000000⟩, ⟨11, false, 455448767419969812666777600000⟩,
      ⟨13, false, 8758630142691727166668800000⟩, ⟨15, true, 282685946404336167813120000⟩,
      ⟨17, true, 1482261170273459896320000⟩]⟩,
  ⟨4, 1, 4,
    [⟨4, false, 1394852659200⟩, ⟨6, true, 22992076800⟩, ⟨8, false, 116121600⟩],
    [⟨0, true, 324658736528605839360000⟩, ⟨2, false, 13199182801958904791040000⟩,
      ⟨4, false, 2532257014043526561792000000⟩, ⟨6, true, 204229010787526146156134400000⟩,
      ⟨8, false, 3578526029728334242381824000000⟩]⟩,
  ⟨4, 0, 5,
    [⟨9, false, 69672960⟩, ⟨11, true, 5109350400⟩, ⟨13, false, 199264665600⟩],
    [⟨9, false, 17892630148641671211909120000000⟩, ⟨11, true, 1062713790646596229555814400000⟩,
      ⟨13, false, 9870837144938295695769600000⟩, ⟨15, false, 190002029550455457054720000⟩,
      ⟨17, true, 2533717369876308295680000⟩]⟩,
  ⟨3, 6, 0,
    [⟨10, false, 21772800⟩, ⟨12, false, 3832012800⟩, ⟨16, true, 62768369664000⟩, ⟨18, true, 6402373705728000⟩],
    [⟨10, false, 874750807266926148137779200000⟩, ⟨12, false, 82535027958380772930355200000⟩,
      ⟨14, false, 1267783576965582579302400000⟩, ⟨16, true, 30053311729852093562880000⟩,
      ⟨18, true, 1164543631221656125440000⟩]⟩,
  ⟨3, 5, 1,
    [⟨1, false, 711374856192000⟩, ⟨3, false, 5230697472000⟩, ⟨5, true, 24908083200⟩, ⟨7, true, 479001600⟩],
    [⟨1, false, 11912609313278197235712000⟩, ⟨3, false, 208117522390077595975680000⟩,
      ⟨5, true, 14792353129879361437040640000⟩, ⟨7, true, 524456156422995541858713600000⟩]⟩,
  ⟨3, 4, 2,
    [⟨10, true, 43545600⟩, ⟨12, true, 5748019200⟩, ⟨14, false, 348713164800⟩, ⟨16, false, 83691159552000⟩],
    [⟨10, true, 2783298023122037744074752000000⟩, ⟨12, true, 96993718987586163808665600000⟩,
      ⟨14, false, 718300355617575508377600000⟩, ⟨16, false, 38328661448948585594880000⟩,
      ⟨18, true, 39438622027284480000000⟩]⟩,
  ⟨3, 3, 3,
    [⟨3, true, 10461394944000⟩, ⟨7, false, 958003200⟩],
    [⟨3, true, 416235044780155191951360000⟩, ⟨7, false, 1048912312845991083717427200000⟩]⟩,
  ⟨3, 2, 4,
    [⟨10, false, 116121600⟩, ⟨12, false, 7664025600⟩, ⟨14, true, 1394852659200⟩],
    [⟨10, false, 5566596046244075488149504000000⟩, ⟨12, false, 42171182168515723395072000000⟩,
      ⟨14, true, 2270755962920077413580800000⟩, ⟨16, true, 9461483178833655889920000⟩,
      ⟨18, false, 298471491502488944640000⟩]⟩,
  ⟨3, 1, 5,
    [⟨5, false, 199264665600⟩, ⟨7, true, 2554675200⟩],
    [⟨1, true, 3107637212159529713664000⟩, ⟨3, false, 102457857176653585711104000⟩,
      ⟨5, false, 29584706259758722874081280000⟩, ⟨7, true, 1678259700553585733947883520000⟩]⟩,
  ⟨3, 0, 6,
    [⟨10, true, 696729600⟩, ⟨12, false, 30656102400⟩],
    [⟨10, true, 9145122075972409730531328000000⟩, ⟨12, false, 107837737259490206967398400000⟩,
      ⟨14, false, 1684861202808045777715200000⟩, ⟨16, true, 16729998682106741391360000⟩,
      ⟨18, true, 102540417270939648000000⟩]⟩,
  ⟨2, 7, 0,
    [⟨0, true, 6402373705728000⟩, ⟨2, true, 104613949440000⟩, ⟨4, true, 697426329600⟩, ⟨8, false, 50803200⟩],
    [⟨0, true, 944949383773736140800000⟩, ⟨2, true, 37142527989211421736960000⟩,
      ⟨4, false, 433628325280656182476800000⟩, ⟨6, false, 69281227848275831291904000000⟩,
      ⟨8, false, 874750807266926148137779200000⟩]⟩,
  ⟨2, 6, 1,
    [⟨9, false, 7257600⟩, ⟨11, false, 319334400⟩, ⟨13, true, 49816166400⟩, ⟨15, true, 10461394944000⟩,
      ⟨17, true, 711374856192000⟩],
    [⟨9, false, 4373754036334630740688896000000⟩, ⟨11, false, 455448767419969812666777600000⟩,
      ⟨13, false, 5700060886513663711641600000⟩, ⟨15, true, 282685946404336167813120000⟩,
      ⟨17, true, 9596971747763961200640000⟩]⟩,
  ⟨2, 5, 2,
    [⟨2, false, 83691159552000⟩, ⟨4, false, 1046139494400⟩, ⟨6, false, 1916006400⟩, ⟨8, true, 72576000⟩],
    [⟨0, true, 259032869475204464640000⟩, ⟨2, false, 28867178270114929704960000⟩,
      ⟨4, false, 1552455607302501905203200000⟩, ⟨6, true, 54822536819070440413593600000⟩,
      ⟨8, true, 2783298023122037744074752000000⟩]⟩,
  ⟨2, 4, 3,
    [⟨9, true, 11612160⟩, ⟨11, true, 319334400⟩, ⟨13, false, 99632332800⟩, ⟨15, false, 10461394944000⟩],
    [⟨9, true, 13916490115610188720373760000000⟩, ⟨11, true, 455448767419969812666777600000⟩,
      ⟨13, false, 8758630142691727166668800000⟩, ⟨15, false, 282685946404336167813120000⟩,
      ⟨17, true, 1482261170273459896320000⟩]⟩,
  ⟨2, 3, 4,
    [⟨4, true, 1394852659200⟩, ⟨6, true, 7664025600⟩, ⟨8, false, 116121600⟩],
    [⟨0, false, 298471491502488944640000⟩, ⟨2, false, 9461483178833655889920000⟩,
      ⟨4, true, 2270755962920077413580800000⟩, ⟨6, true, 42171182168515723395072000000⟩,
      ⟨8, false, 5566596046244075488149504000000⟩]⟩,
  ⟨2, 2, 5,
    [⟨9, false, 23224320⟩, ⟨13, true, 199264665600⟩],
    [⟨9, false, 27832980231220377440747520000000⟩, ⟨13, true, 17517260285383454333337600000⟩,
      ⟨17, false, 2964522340546919792640000⟩]⟩,
  ⟨2, 1, 6,
    [⟨6, false, 30656102400⟩, ⟨8, true, 232243200⟩],
    [⟨0, false, 26187245026116894720000⟩, ⟨2, true, 22660665980792560680960000⟩,
      ⟨4, true, 261501051123449148211200000⟩, ⟨6, false, 246400192956041869551206400000⟩,
      ⟨8, true, 9145122075972409730531328000000⟩]⟩,
  ⟨2, 0, 7,
    [⟨9, true, 92897280⟩, ⟨11, false, 5109350400⟩],
    [⟨9, true, 45725610379862048652656640000000⟩, ⟨11, false, 1062713790646596229555814400000⟩,
      ⟨13, false, 7646423140445158637568000000⟩, ⟨15, true, 190002029550455457054720000⟩,
      ⟨17, true, 430804970670611496960000⟩]⟩,
  ⟨1, 8, 0,
    [⟨10, false, 50803200⟩, ⟨12, false, 13412044800⟩, ⟨14, false, 1743565824000⟩, ⟨16, false, 146459529216000⟩,
      ⟨18, false, 6402373705728000⟩],
    [⟨10, true, 79522800660629649830707200000⟩, ⟨12, false, 24700263841559209417113600000⟩,
      ⟨14, false, 1982773792695519490867200000⟩, ⟨16, false, 55182790376841774366720000⟩,
      ⟨18, false, 800446272665765806080000⟩]⟩,
  ⟨1, 7, 1,
    [⟨1, true, 711374856192000⟩, ⟨3, true, 15692092416000⟩, ⟨5, true, 174356582400⟩, ⟨7, true, 1117670400⟩],
    [⟨1, true, 8804972101118667522048000⟩, ⟨3, true, 521894709993579202215936000⟩,
      ⟨5, true, 14792353129879361437040640000⟩, ⟨7, true, 104891231284599108371742720000⟩]⟩,
  ⟨1, 6, 2,
    [⟨10, true, 72576000⟩, ⟨12, true, 17244057600⟩, ⟨14, true, 1743565824000⟩, ⟨16, true, 83691159552000⟩],
    [⟨10, true, 795228006606296498307072000000⟩, ⟨12, true, 107235291799939982347468800000⟩,
      ⟨14, true, 3250557369661102070169600000⟩, ⟨16, true, 25129478646989680803840000⟩,
      ⟨18, false, 364097358555890319360000⟩]⟩,
  ⟨1, 5, 3,
    [⟨3, false, 10461394944000⟩, ⟨5, false, 199264665600⟩, ⟨7, false, 1596672000⟩],
    [⟨1, true, 3107637212159529713664000⟩, ⟨3, false, 313777187603501606240256000⟩,
      ⟨5, false, 29584706259758722874081280000⟩, ⟨7, false, 629347387707594650230456320000⟩]⟩,
  ⟨1, 4, 4,
    [⟨10, false, 116121600⟩, ⟨12, false, 22992076800⟩, ⟨14, false, 1394852659200⟩],
    [⟨10, false, 3578526029728334242381824000000⟩, ⟨12, false, 204229010787526146156134400000⟩,
      ⟨14, false, 2532257014043526561792000000⟩, ⟨16, true, 13199182801958904791040000⟩,
      ⟨18, true, 324658736528605839360000⟩]⟩,
  ⟨1, 3, 5,
    [⟨5, true, 199264665600⟩, ⟨7, true, 2554675200⟩],
    [⟨1, false, 3107637212159529713664000⟩, ⟨3, false, 102457857176653585711104000⟩,
      ⟨5, true, 29584706259758722874081280000⟩, ⟨7, true, 1678259700553585733947883520000⟩]⟩,
  ⟨1, 2, 6,
    [⟨10, true, 232243200⟩, ⟨12, true, 30656102400⟩],
    [⟨10, true, 9145122075972409730531328000000⟩, ⟨12, true, 246400192956041869551206400000⟩,
      ⟨14, true, 261501051123449148211200000⟩, ⟨16, false, 22660665980792560680960000⟩,
      ⟨18, false, 26187245026116894720000⟩]⟩,
  ⟨1, 1, 7,
    [⟨7, false, 5109350400⟩],
    [⟨3, true, 204915714353307171422208000⟩, ⟨7, false, 3356519401107171467895767040000⟩]⟩,
  ⟨1, 0, 8,
    [⟨10, false, 928972800⟩],
    [⟨10, false, 18290244151944819461062656000000⟩, ⟨12, false, 138562455696551662583808000000⟩,
      ⟨14, true, 1423360151684596629504000000⟩, ⟨16, true, 5930667298685819289600000⟩,
      ⟨18, false, 76353172244822753280000⟩]⟩,
  ⟨0, 9, 0,
    [⟨0, false, 6402373705728000⟩, ⟨2, false, 188305108992000⟩, ⟨4, false, 3138418483200⟩, ⟨6, false, 40236134400⟩,
      ⟨8, false, 457228800⟩],
    [⟨0, false, 489985440066982379520000⟩, ⟨2, false, 39818224398385954160640000⟩,
      ⟨4, false, 1704722042133877358592000000⟩, ⟨6, false, 25905154760659658656972800000⟩,
      ⟨8, true, 79522800660629649830707200000⟩]⟩,
  ⟨0, 8, 1,
    [⟨9, false, 50803200⟩, ⟨11, false, 4470681600⟩, ⟨13, false, 348713164800⟩, ⟨15, false, 20922789888000⟩,
      ⟨17, false, 711374856192000⟩],
    [⟨9, true, 397614003303148249153536000000⟩, ⟨11, false, 151816255806656604222259200000⟩,
      ⟨13, false, 12929406401116359150796800000⟩, ⟨15, false, 375369863258216878571520000⟩,
      ⟨17, false, 5580993207614193008640000⟩]⟩,
  ⟨0, 7, 2,
    [⟨2, true, 83691159552000⟩, ⟨4, true, 2440992153600⟩, ⟨6, true, 40236134400⟩, ⟨8, true, 508032000⟩],
    [⟨0, false, 454963943706753761280000⟩, ⟨2, true, 2675696409174532423680000⟩,
      ⟨4, true, 2138350367414533541068800000⟩, ⟨6, true, 95186382608935489948876800000⟩,
      ⟨8, true, 795228006606296498307072000000⟩]⟩,
  ⟨0, 6, 3,
    [⟨9, true, 58060800⟩, ⟨11, true, 4790016000⟩, ⟨13, true, 298896998400⟩, ⟨15, true, 10461394944000⟩],
    [⟨9, true, 3976140033031482491535360000000⟩, ⟨11, true, 607265023226626416889036800000⟩,
      ⟨13, true, 18629467287630022862438400000⟩, ⟨15, true, 92683916853880710758400000⟩,
      ⟨17, false, 4015978540149768192000000⟩]⟩,
  ⟨0, 5, 4,
    [⟨4, false, 1394852659200⟩, ⟨6, false, 38320128000⟩, ⟨8, false, 580608000⟩],
    [⟨0, true, 195931074231549296640000⟩, ⟨2, true, 26191481860940397281280000⟩,
      ⟨4, false, 585894760112031635865600000⟩, ⟨6, false, 150008919428005930362470400000⟩,
      ⟨8, false, 3578526029728334242381824000000⟩]⟩,
  ⟨0, 4, 5,
    [⟨9, false, 69672960⟩, ⟨11, false, 5109350400⟩, ⟨13, false, 199264665600⟩],
    [⟨9, false, 17892630148641671211909120000000⟩, ⟨11, false, 1062713790646596229555814400000⟩,
      ⟨13, false, 9870837144938295695769600000⟩, ⟨15, true, 190002029550455457054720000⟩,
      ⟨17, true, 2533717369876308295680000⟩]⟩,
  ⟨0, 3, 6,
    [⟨6, true, 30656102400⟩, ⟨8, true, 696729600⟩],
    [⟨0, true, 102540417270939648000000⟩, ⟨2, false, 16729998682106741391360000⟩,
      ⟨4, false, 1684861202808045777715200000⟩, ⟨6, true, 107837737259490206967398400000⟩,
      ⟨8, true, 9145122075972409730531328000000⟩]⟩,
  ⟨0, 2, 7,
    [⟨9, true, 92897280⟩, ⟨11, true, 5109350400⟩],
    [⟨9, true, 45725610379862048652656640000000⟩, ⟨11, true, 1062713790646596229555814400000⟩,
      ⟨13, false, 7646423140445158637568000000⟩, ⟨15, false, 190002029550455457054720000⟩,
      ⟨17, true, 430804970670611496960000⟩]⟩,
  ⟨0, 1, 8,
    [⟨8, false, 928972800⟩],
    [⟨0, false, 76353172244822753280000⟩, ⟨2, false, 5930667298685819289600000⟩,
      ⟨4, true, 1423360151684596629504000000⟩, ⟨6, true, 138562455696551662583808000000⟩,
      ⟨8, false, 18290244151944819461062656000000⟩]⟩,
  ⟨0, 0, 9,
    [⟨9, false, 185794560⟩],
    [⟨9, false, 91451220759724097305313280000000⟩, ⟨13, true, 15292846280890317275136000000⟩,
      ⟨17, false, 861609941341222993920000⟩]⟩]

/-- degree 9: the rows of `V` -/
def certInverse9 : List (List CertEntry) := [
  [⟨0, false, 177690205⟩, ⟨2, true, 366978150⟩, ⟨4, true, 215253007200⟩, ⟨6, false, 1476885009600⟩,
    ⟨8, false, 82190966457600⟩],
  [⟨1, false, 16199834112⟩, ⟨5, true, 15595525693440⟩],
  [⟨0, true, 366978150⟩, ⟨2, false, 396975908340⟩, ⟨4, true, 2455922462400⟩, ⟨6, true, 690824909174400⟩,
    ⟨8, false, 6384112967232000⟩],
  [⟨3, false, 36115006685184⟩, ⟨7, true, 40106020983275520⟩],
  [⟨0, true, 215253007200⟩, ⟨2, true, 2455922462400⟩, ⟨4, false, 1611045583488000⟩, ⟨6, true, 20137624835328000⟩,
    ⟨8, true, 1532187112135680000⟩],
  [⟨1, true, 15595525693440⟩, ⟨5, false, 148469404601548800⟩],
  [⟨0, false, 1476885009600⟩, ⟨2, true, 690824909174400⟩, ⟨4, true, 20137624835328000⟩,
    ⟨6, false, 6907583236409856000⟩, ⟨8, true, 149156633753487360000⟩],
  [⟨3, true, 40106020983275520⟩, ⟨7, false, 656936623706053017600⟩],
  [⟨0, false, 82190966457600⟩, ⟨2, false, 6384112967232000⟩, ⟨4, true, 1532187112135680000⟩,
    ⟨6, true, 149156633753487360000⟩, ⟨8, false, 19688675655460331520000⟩],
  [⟨9, false, 492216891386508288000000⟩, ⟨13, true, 82310516954265600000⟩, ⟨17, false, 4637433632832000⟩],
  [⟨10, false, 19688675655460331520000⟩, ⟨12, false, 149156633753487360000⟩, ⟨14, true, 1532187112135680000⟩,
    ⟨16, true, 6384112967232000⟩, ⟨18, false, 82190966457600⟩],
  [⟨11, false, 207993914577985536000⟩, ⟨15, true, 37187120607436800⟩],
  [⟨10, false, 149156633753487360000⟩, ⟨12, false, 6907583236409856000⟩, ⟨14, false, 20137624835328000⟩,
    ⟨16, true, 690824909174400⟩, ⟨18, true, 1476885009600⟩],
  [⟨9, true, 82310516954265600000⟩, ⟨13, false, 78316215538176000⟩, ⟨17, true, 14336817264000⟩],
  [⟨10, true, 1532187112135680000⟩, ⟨12, false, 20137624835328000⟩, ⟨14, false, 1611045583488000⟩,
    ⟨16, false, 2455922462400⟩, ⟨18, true, 215253007200⟩],
  [⟨11, true, 37187120607436800⟩, ⟨15, false, 25886683468800⟩],
  [⟨10, true, 6384112967232000⟩, ⟨12, true, 690824909174400⟩, ⟨14, false, 2455922462400⟩, ⟨16, false, 396975908340⟩,
    ⟨18, false, 366978150⟩],
  [⟨9, false, 4637433632832000⟩, ⟨13, true, 14336817264000⟩, ⟨17, false, 14542028820⟩],
  [⟨10, false, 82190966457600⟩, ⟨12, true, 1476885009600⟩, ⟨14, true, 215253007200⟩, ⟨16, false, 366978150⟩,
    ⟨18, false, 177690205⟩]]

/-- degree 9: the denominator -/
def certDen9 : ℕ := 29475932998625243250934385832099840000000

/-- degree 10: the rows of `Qᵀ` and `U` -/
def certRows10 : List CertRow := [
  ⟨10, 0, 0,
    [⟨10, true, 914457600⟩, ⟨12, false, 100590336000⟩, ⟨14, true, 10461394944000⟩, ⟨16, false, 941525544960000⟩,
      ⟨18, true, 64023737057280000⟩, ⟨20, false, 2432902008176640000⟩],
    [⟨10, false, 23801318824636746248239448064000000⟩, ⟨14, true, 140683785926507574394355712000000⟩,
      ⟨16, false, 5680190417689977182119526400000⟩, ⟨18, true, 97535189428243594739712000000⟩,
      ⟨20, false, 928135689165028951326720000⟩]⟩,
  ⟨9, 1, 0,
    [⟨0, false, 2432902008176640000⟩, ⟨2, true, 51218989645824000⟩, ⟨4, false, 564915326976000⟩,
      ⟨6, true, 4184557977600⟩, ⟨8, false, 20118067200⟩],
    [⟨0, false, 1533502122622044025651200000⟩, ⟨2, true, 140197338310717531068825600000⟩,
      ⟨4, false, 6938302768976573005352140800000⟩, ⟨6, true, 125562103969988969288957952000000⟩,
      ⟨8, true, 544102450536618866918817792000000⟩]⟩,
  ⟨9, 0, 1,
    [⟨11, false, 10059033600⟩, ⟨13, true, 1046139494400⟩, ⟨15, false, 94152554496000⟩, ⟨17, true, 6402373705728000⟩,
      ⟨19, false, 243290200817664000⟩],
    [⟨11, true, 3264614703219713201512906752000000⟩, ⟨13, true, 899861745118254279904198656000000⟩,
      ⟨15, false, 51321018686146285066518528000000⟩, ⟨17, true, 1057708316297146808873779200000⟩,
      ⟨19, false, 11645617586464715754700800000⟩]⟩,
  ⟨8, 2, 0,
    [⟨10, true, 101606400⟩, ⟨12, false, 6706022400⟩, ⟨14, false, 697426329600⟩, ⟨16, true, 271996268544000⟩,
      ⟨18, false, 38414242234368000⟩, ⟨20, true, 2432902008176640000⟩],
    [⟨10, true, 11900659412318373124119724032000000⟩, ⟨12, false, 7753459920146818853593153536000000⟩,
      ⟨14, true, 270469532098144843729993728000000⟩, ⟨16, false, 177505950552811786941235200000⟩,
      ⟨18, false, 104455736064023534449459200000⟩, ⟨20, true, 1952443332963934257807360000⟩]⟩,
  ⟨8, 1, 1,
    [⟨1, false, 243290200817664000⟩, ⟨3, true, 4979623993344000⟩, ⟨5, false, 52306974720000⟩,
      ⟨7, true, 348713164800⟩, ⟨9, false, 1117670400⟩],
    [⟨1, false, 19024424865976164758323200000⟩, ⟨3, true, 1465843773295768750365081600000⟩,
      ⟨5, false, 59691825617478883019115724800000⟩, ⟨7, true, 858007710461591290141212672000000⟩,
      ⟨9, true, 3264614703219713201512906752000000⟩]⟩,
  ⟨8, 0, 2,
    [⟨10, false, 1016064000⟩, ⟨12, true, 107296358400⟩, ⟨14, false, 9763968614400⟩, ⟨16, true, 669529276416000⟩,
      ⟨18, false, 25609494822912000⟩],
    [⟨10, true, 11900659412318373124119724032000000⟩, ⟨12, true, 7753459920146818853593153536000000⟩,
      ⟨14, false, 411153318024652418124349440000000⟩, ⟨16, true, 5857696368242788969060761600000⟩,
      ⟨18, true, 6920546635779939709747200000⟩, ⟨20, false, 1024307643798905306480640000⟩]⟩,
  ⟨7, 3, 0,
    [⟨0, true, 2432902008176640000⟩, ⟨2, false, 25609494822912000⟩, ⟨4, true, 62768369664000⟩,
      ⟨6, true, 697426329600⟩, ⟨8, false, 6706022400⟩],
    [⟨0, true, 2506844790183615245844480000⟩, ⟨2, false, 99163971000263619536486400000⟩,
      ⟨4, false, 3201335388917377490799820800000⟩, ⟨6, true, 376686311909966907866873856000000⟩,
      ⟨8, false, 5985126955902807536106995712000000⟩]⟩,
  ⟨7, 2, 1,
    [⟨11, false, 1117670400⟩, ⟨15, true, 20922789888000⟩, ⟨17, false, 3556874280960000⟩,
      ⟨19, true, 243290200817664000⟩],
    [⟨11, false, 35910761735416845216641974272000000⟩, ⟨13, true, 2406606992758121911371694080000000⟩,
      ⟨15, false, 13054472714340122997502771200000⟩, ⟨17, false, 986632662205824854969548800000⟩,
      ⟨19, true, 22458869717618688786432000000⟩]⟩,
  ⟨7, 1, 2,
    [⟨2, false, 25609494822912000⟩, ⟨4, true, 502146957312000⟩, ⟨6, false, 4881984307200⟩, ⟨8, true, 26824089600⟩],
    [⟨0, false, 973342667561571220193280000⟩, ⟨2, false, 41033367310453911532339200000⟩,
      ⟨4, true, 10139638157893950496151961600000⟩, ⟨6, false, 502248415879955877155831808000000⟩,
      ⟨8, true, 5441024505366188669188177920000000⟩]⟩,
  ⟨7, 0, 3,
    [⟨11, true, 11176704000⟩, ⟨13, false, 1046139494400⟩, ⟨15, true, 73229764608000⟩, ⟨17, false, 2845499424768000⟩],
    [⟨11, true, 32646147032197132015129067520000000⟩, ⟨13, false, 3306468737876376191275892736000000⟩,
      ⟨15, true, 64375491400486408064021299200000⟩, ⟨17, false, 71075654091321953904230400000⟩,
      ⟨19, false, 10813252131153973031731200000⟩]⟩,
  ⟨6, 4, 0,
    [⟨10, true, 43545600⟩, ⟨12, false, 958003200⟩, ⟨14, false, 697426329600⟩, ⟨16, true, 62768369664000⟩,
      ⟨18, true, 12804747411456000⟩, ⟨20, false, 2432902008176640000⟩],
    [⟨10, true, 202311210009412343110035308544000000⟩, ⟨12, false, 7753459920146818853593153536000000⟩,
      ⟨14, false, 173377905191118489570508800000000⟩, ⟨16, true, 5502684467137165395178291200000⟩,
      ⟨18, true, 43398437675056658959564800000⟩, ⟨20, false, 2590536619264891661844480000⟩]⟩,
  ⟨6, 3, 1,
    [⟨1, true, 243290200817664000⟩, ⟨3, false, 2134124568576000⟩, ⟨7, true, 99632332800⟩, ⟨9, false, 479001600⟩],
    [⟨1, true, 27678026086053616130457600000⟩, ⟨3, false, 798318815798920296687206400000⟩,
      ⟨5, false, 38166893508337916855294361600000⟩, ⟨7, true, 2867001373981414798764539904000000⟩,
      ⟨9, false, 35910761735416845216641974272000000⟩]⟩,
  ⟨6, 2, 2,
    [⟨10, false, 145152000⟩, ⟨12, true, 7664025600⟩, ⟨14, true, 1394852659200⟩, ⟨16, false, 334764638208000⟩,
      ⟨18, true, 25609494822912000⟩],
    [⟨10, false, 214211869421730716234155032576000000⟩, ⟨12, true, 15506919840293637707186307072000000⟩,
      ⟨14, false, 97091626907026354159484928000000⟩, ⟨16, false, 5325178516584353608237056000000⟩,
      ⟨18, true, 61057298388966875489894400000⟩, ⟨20, true, 638093286300957404037120000⟩]⟩,
  ⟨6, 1, 3,
    [⟨3, false, 2845499424768000⟩, ⟨5, true, 52306974720000⟩, ⟨7, false, 448345497600⟩, ⟨9, true, 1596672000⟩],
    [⟨1, false, 8653601220077451372134400000⟩, ⟨3, false, 667524957496848453677875200000⟩,
      ⟨5, true, 97858719125816799874410086400000⟩, ⟨7, false, 3725009084443006088905752576000000⟩,
      ⟨9, true, 32646147032197132015129067520000000⟩]⟩,
  ⟨6, 0, 4,
    [⟨10, true, 1161216000⟩, ⟨12, false, 114960384000⟩, ⟨14, true, 8369115955200⟩, ⟨16, false, 334764638208000⟩],
    [⟨10, true, 202311210009412343110035308544000000⟩, ⟨12, false, 23260379760440456560779460608000000⟩,
      ⟨14, true, 508244944931678772283834368000000⟩, ⟨16, false, 532517851658435360823705600000⟩,
      ⟨18, false, 67977845024746815199641600000⟩, ⟨20, true, 386214357497947902443520000⟩]⟩,
  ⟨5, 5, 0,
    [⟨0, false, 2432902008176640000⟩, ⟨4, true, 104613949440000⟩, ⟨8, false, 4790016000⟩],
    [⟨0, false, 2861537457176391198965760000⟩, ⟨4, true, 7473934760118391029104640000000⟩,
      ⟨8, false, 13058458812878852806051627008000000⟩]⟩,
  ⟨5, 4, 1,
    [⟨11, false, 479001600⟩, ⟨13, false, 49816166400⟩, ⟨15, true, 10461394944000⟩, ⟨17, true, 711374856192000⟩,
      ⟨19, false, 243290200817664000⟩],
    [⟨11, false, 78350752877273116836309762048000000⟩, ⟨13, false, 502248415879955877155831808000000⟩,
      ⟨15, true, 59791478080947128232837120000000⟩, ⟨17, true, 219821610591717383208960000000⟩,
      ⟨19, false, 28615374571763911989657600000⟩]⟩,
  ⟨5, 3, 2,
    [⟨2, true, 25609494822912000⟩, ⟨4, false, 167382319104000⟩, ⟨6, false, 697426329600⟩, ⟨8, true, 11496038400⟩],
    [⟨0, true, 354692666992775953121280000⟩, ⟨2, true, 99163971000263619536486400000⟩,
      ⟨4, false, 4272599371201013538304819200000⟩, ⟨6, false, 376686311909966907866873856000000⟩,
      ⟨8, true, 19043585768781660342158622720000000⟩]⟩,
  ⟨5, 2, 3,
    [⟨11, true, 1596672000⟩, ⟨13, true, 49816166400⟩, ⟨15, false, 31384184832000⟩, ⟨17, true, 2845499424768000⟩],
    [⟨11, true, 114261514612689962052951736320000000⟩, ⟨13, false, 1904358576878166034215862272000000⟩,
      ⟨15, false, 46737005366607005235334348800000⟩, ⟨17, true, 766811051614107471760588800000⟩,
      ⟨19, true, 6156504854145223203225600000⟩]⟩,
  ⟨5, 1, 4,
    [⟨4, false, 334764638208000⟩, ⟨6, true, 5579410636800⟩, ⟨8, false, 38320128000⟩],
    [⟨0, true, 618650000568795267072000000⟩, ⟨2, false, 58130603689809708004147200000⟩,
      ⟨4, false, 5867038786692936957847142400000⟩, ⟨6, true, 878934727789922785022705664000000⟩,
      ⟨8, false, 24484610274147849011346800640000000⟩]⟩,
  ⟨5, 0, 5,
    [⟨11, false, 12773376000⟩, ⟨13, true, 996323328000⟩, ⟨15, false, 41845579776000⟩],
    [⟨11, false, 146907661644887094068080803840000000⟩, ⟨13, true, 5210827314754542225491755008000000⟩,
      ⟨15, false, 17638486033879402828686950400000⟩, ⟨17, false, 695735397522785517856358400000⟩,
      ⟨19, true, 4656747277008749828505600000⟩]⟩,
  ⟨4, 6, 0,
    [⟨10, true, 43545600⟩, ⟨12, true, 958003200⟩, ⟨14, false, 697426329600⟩, ⟨16, false, 62768369664000⟩,
      ⟨18, true, 12804747411456000⟩, ⟨20, true, 2432902008176640000⟩],
    [⟨10, true, 202311210009412343110035308544000000⟩, ⟨12, true, 7753459920146818853593153536000000⟩,
      ⟨14, false, 173377905191118489570508800000000⟩, ⟨16, false, 5502684467137165395178291200000⟩,
      ⟨18, true, 43398437675056658959564800000⟩, ⟨20, true, 2590536619264891661844480000⟩]⟩,
  ⟨4, 5, 1,
    [⟨1, false, 243290200817664000⟩, ⟨3, false, 711374856192000⟩, ⟨5, true, 10461394944000⟩, ⟨7, true, 49816166400⟩,
      ⟨9, false, 479001600⟩],
    [⟨1, false, 28615374571763911989657600000⟩, ⟨3, false, 219821610591717383208960000000⟩,
      ⟨5, true, 59791478080947128232837120000000⟩, ⟨7, true, 502248415879955877155831808000000⟩,
      ⟨9, false, 78350752877273116836309762048000000⟩]⟩,
  ⟨4, 4, 2,
    [⟨10, false, 87091200⟩, ⟨14, true, 1394852659200⟩, ⟨18, false, 25609494822912000⟩],
    [⟨10, false, 404622420018824686220070617088000000⟩, ⟨14, true, 346755810382236979141017600000000⟩,
      ⟨18, false, 86796875350113317919129600000⟩]⟩,
  ⟨4, 3, 3,
    [⟨3, true, 2845499424768000⟩, ⟨5, false, 10461394944000⟩, ⟨7, false, 149448499200⟩, ⟨9, true, 958003200⟩],
    [⟨1, true, 937348485710295859200000000⟩, ⟨3, true, 1018140426390637679896166400000⟩,
      ⟨5, false, 21624584572609211377542758400000⟩, ⟨7, false, 3369249789861370675920371712000000⟩,
      ⟨9, true, 114261514612689962052951736320000000⟩]⟩,
  ⟨4, 2, 4,
    [⟨10, true, 232243200⟩, ⟨12, false, 7664025600⟩, ⟨14, false, 2789705318400⟩, ⟨16, true, 334764638208000⟩],
    [⟨10, true, 618834289440555402454225649664000000⟩, ⟨12, false, 15506919840293637707186307072000000⟩,
      ⟨14, false, 249664183475210624981532672000000⟩, ⟨16, true, 5325178516584353608237056000000⟩,
      ⟨18, true, 25739576961146442429235200000⟩, ⟨20, false, 638093286300957404037120000⟩]⟩,
  ⟨4, 1, 5,
    [⟨5, false, 41845579776000⟩, ⟨7, true, 597793996800⟩, ⟨9, false, 2554675200⟩],
    [⟨1, true, 7716252734367155512934400000⟩, ⟨3, false, 350615468893789226218291200000⟩,
      ⟨5, false, 76234134553207588496867328000000⟩, ⟨7, true, 7094258874304376764826124288000000⟩,
      ⟨9, false, 146907661644887094068080803840000000⟩]⟩,
  ⟨4, 0, 6,
    [⟨10, false, 1393459200⟩, ⟨12, true, 122624409600⟩, ⟨14, false, 5579410636800⟩],
    [⟨10, false, 821145499449967745564260958208000000⟩, ⟨12, true, 38767299600734094267965767680000000⟩,
      ⟨14, false, 258580761456468147302301696000000⟩, ⟨16, false, 4792660664925918247413350400000⟩,
      ⟨18, true, 42238268063600372770406400000⟩, ⟨20, true, 251878928803009501593600000⟩]⟩,
  ⟨3, 7, 0,
    [⟨0, true, 2432902008176640000⟩, ⟨2, true, 25609494822912000⟩, ⟨4, true, 62768369664000⟩,
      ⟨6, false, 697426329600⟩, ⟨8, false, 6706022400⟩],
    [⟨0, true, 2506844790183615245844480000⟩, ⟨2, true, 99163971000263619536486400000⟩,
      ⟨4, false, 3201335388917377490799820800000⟩, ⟨6, false, 376686311909966907866873856000000⟩,
      ⟨8, false, 5985126955902807536106995712000000⟩]⟩,
  ⟨3, 6, 1,
    [⟨11, false, 479001600⟩, ⟨13, false, 99632332800⟩, ⟨17, true, 2134124568576000⟩, ⟨19, true, 243290200817664000⟩],
    [⟨11, false, 35910761735416845216641974272000000⟩, ⟨13, false, 2867001373981414798764539904000000⟩,
      ⟨15, false, 38166893508337916855294361600000⟩, ⟨17, true, 798318815798920296687206400000⟩,
      ⟨19, true, 27678026086053616130457600000⟩]⟩,
  ⟨3, 5, 2,
    [⟨2, false, 25609494822912000⟩, ⟨4, false, 167382319104000⟩, ⟨6, true, 697426329600⟩, ⟨8, true, 11496038400⟩],
    [⟨0, true, 354692666992775953121280000⟩, ⟨2, false, 99163971000263619536486400000⟩,
      ⟨4, false, 4272599371201013538304819200000⟩, ⟨6, true, 376686311909966907866873856000000⟩,
      ⟨8, true, 19043585768781660342158622720000000⟩]⟩,
  ⟨3, 4, 3,
    [⟨11, true, 958003200⟩, ⟨13, true, 149448499200⟩, ⟨15, false, 10461394944000⟩, ⟨17, false, 2845499424768000⟩],
    [⟨11, true, 114261514612689962052951736320000000⟩, ⟨13, true, 3369249789861370675920371712000000⟩,
      ⟨15, false, 21624584572609211377542758400000⟩, ⟨17, false, 1018140426390637679896166400000⟩,
      ⟨19, true, 937348485710295859200000000⟩]⟩,
  ⟨3, 3, 4,
    [⟨4, true, 334764638208000⟩, ⟨8, false, 22992076800⟩],
    [⟨0, false, 709385333985551906242560000⟩, ⟨4, true, 8545198742402027076609638400000⟩,
      ⟨8, false, 38087171537563320684317245440000000⟩]⟩,
  ⟨3, 2, 5,
    [⟨11, false, 2554675200⟩, ⟨13, false, 199264665600⟩, ⟨15, true, 41845579776000⟩],
    [⟨11, false, 228523029225379924105903472640000000⟩, ⟨13, false, 1464891212983204641704509440000000⟩,
      ⟨15, true, 68361589939216216612877107200000⟩, ⟨17, true, 251329374776530208135577600000⟩,
      ⟨19, false, 7093853339855519062425600000⟩]⟩,
  ⟨3, 1, 6,
    [⟨6, false, 5579410636800⟩, ⟨8, true, 61312204800⟩],
    [⟨0, true, 90735333416756639170560000⟩, ⟨2, true, 58130603689809708004147200000⟩,
      ⟨4, false, 2678159955709090118762496000000⟩, ⟨6, false, 878934727789922785022705664000000⟩,
      ⟨8, true, 62571781811711169695664046080000000⟩]⟩,
  ⟨3, 0, 7,
    [⟨11, true, 15328051200⟩, ⟨13, false, 797058662400⟩],
    [⟨11, true, 375430690870267018173984276480000000⟩, ⟨13, false, 3745936101771337583787245568000000⟩,
      ⟨15, false, 50723103905336813784190156800000⟩, ⟨17, true, 444406022746255309720780800000⟩,
      ⟨19, true, 2437106062846769233920000000⟩]⟩,
  ⟨2, 8, 0,
    [⟨10, true, 101606400⟩, ⟨12, true, 6706022400⟩, ⟨14, false, 697426329600⟩, ⟨16, false, 271996268544000⟩,
      ⟨18, false, 38414242234368000⟩, ⟨20, false, 2432902008176640000⟩],
    [⟨10, true, 11900659412318373124119724032000000⟩, ⟨12, true, 7753459920146818853593153536000000⟩,
      ⟨14, true, 270469532098144843729993728000000⟩, ⟨16, true, 177505950552811786941235200000⟩,
      ⟨18, false, 104455736064023534449459200000⟩, ⟨20, false, 1952443332963934257807360000⟩]⟩,
  ⟨2, 7, 1,
    [⟨1, true, 243290200817664000⟩, ⟨3, true, 3556874280960000⟩, ⟨5, true, 20922789888000⟩, ⟨9, false, 1117670400⟩],
    [⟨1, true, 22458869717618688786432000000⟩, ⟨3, true, 986632662205824854969548800000⟩,
      ⟨5, false, 13054472714340122997502771200000⟩, ⟨7, false, 2406606992758121911371694080000000⟩,
      ⟨9, false, 35910761735416845216641974272000000⟩]⟩,
  ⟨2, 6, 2,
    [⟨10, false, 145152000⟩, ⟨12, false, 7664025600⟩, ⟨14, true, 1394852659200⟩, ⟨16, true, 334764638208000⟩,
      ⟨18, true, 25609494822912000⟩],
    [⟨10, false, 214211869421730716234155032576000000⟩, ⟨12, false, 15506919840293637707186307072000000⟩,
      ⟨14, false, 97091626907026354159484928000000⟩, ⟨16, true, 5325178516584353608237056000000⟩,
      ⟨18, true, 61057298388966875489894400000⟩, ⟨20, false, 638093286300957404037120000⟩]⟩,
  ⟨2, 5, 3,
    [⟨3, false, 2845499424768000⟩, ⟨5, false, 31384184832000⟩, ⟨7, false, 49816166400⟩, ⟨9, true, 1596672000⟩],
    [⟨1, true, 6156504854145223203225600000⟩, ⟨3, false, 766811051614107471760588800000⟩,
      ⟨5, false, 46737005366607005235334348800000⟩, ⟨7, true, 1904358576878166034215862272000000⟩,
      ⟨9, true, 114261514612689962052951736320000000⟩]⟩,
  ⟨2, 4, 4,
    [⟨10, true, 232243200⟩, ⟨12, true, 7664025600⟩, ⟨14, false, 2789705318400⟩, ⟨16, false, 334764638208000⟩],
    [⟨10, true, 618834289440555402454225649664000000⟩, ⟨12, true, 15506919840293637707186307072000000⟩,
      ⟨14, false, 249664183475210624981532672000000⟩, ⟨16, false, 5325178516584353608237056000000⟩,
      ⟨18, true, 25739576961146442429235200000⟩, ⟨20, true, 638093286300957404037120000⟩]⟩,
  ⟨2, 3, 5,
    [⟨5, true, 41845579776000⟩, ⟨7, true, 199264665600⟩, ⟨9, false, 2554675200⟩],
    [⟨1, false, 7093853339855519062425600000⟩, ⟨3, false, 251329374776530208135577600000⟩,
      ⟨5, true, 68361589939216216612877107200000⟩, ⟨7, true, 1464891212983204641704509440000000⟩,
      ⟨9, false, 228523029225379924105903472640000000⟩]⟩,
  ⟨2, 2, 6,
    [⟨10, false, 464486400⟩, ⟨14, true, 5579410636800⟩],
    [⟨10, false, 1237668578881110804908451299328000000⟩, ⟨14, true, 499328366950421249963065344000000⟩,
      ⟨18, false, 51479153922292884858470400000⟩]⟩,
  ⟨2, 1, 7,
    [⟨7, false, 797058662400⟩, ⟨9, true, 5109350400⟩],
    [⟨1, false, 622399394511636450508800000⟩, ⟨3, true, 601944843670319434353868800000⟩,
      ⟨5, true, 7872544613991371883990220800000⟩, ⟨7, false, 8559150087287581406530633728000000⟩,
      ⟨9, true, 375430690870267018173984276480000000⟩]⟩,
  ⟨2, 0, 8,
    [⟨10, true, 1857945600⟩, ⟨12, false, 122624409600⟩],
    [⟨10, true, 2058814078331078550472712257536000000⟩, ⟨12, false, 38767299600734094267965767680000000⟩,
      ⟨14, false, 240747605493953102660763648000000⟩, ⟨16, true, 4792660664925918247413350400000⟩,
      ⟨18, true, 9240885858692512088064000000⟩, ⟨20, false, 251878928803009501593600000⟩]⟩,
  ⟨1, 9, 0,
    [⟨0, false, 2432902008176640000⟩, ⟨2, false, 51218989645824000⟩, ⟨4, false, 564915326976000⟩,
      ⟨6, false, 4184557977600⟩, ⟨8, false, 20118067200⟩],
    [⟨0, false, 1533502122622044025651200000⟩, ⟨2, false, 140197338310717531068825600000⟩,
      ⟨4, false, 6938302768976573005352140800000⟩, ⟨6, false, 125562103969988969288957952000000⟩,
      ⟨8, true, 544102450536618866918817792000000⟩]⟩,
  ⟨1, 8, 1,
    [⟨11, false, 1117670400⟩, ⟨13, false, 348713164800⟩, ⟨15, false, 52306974720000⟩, ⟨17, false, 4979623993344000⟩,
      ⟨19, false, 243290200817664000⟩],
    [⟨11, true, 3264614703219713201512906752000000⟩, ⟨13, false, 858007710461591290141212672000000⟩,
      ⟨15, false, 59691825617478883019115724800000⟩, ⟨17, false, 1465843773295768750365081600000⟩,
      ⟨19, false, 19024424865976164758323200000⟩]⟩,
  ⟨1, 7, 2,
    [⟨2, true, 25609494822912000⟩, ⟨4, true, 502146957312000⟩, ⟨6, true, 4881984307200⟩, ⟨8, true, 26824089600⟩],
    [⟨0, false, 973342667561571220193280000⟩, ⟨2, true, 41033367310453911532339200000⟩,
      ⟨4, true, 10139638157893950496151961600000⟩, ⟨6, true, 502248415879955877155831808000000⟩,
      ⟨8, true, 5441024505366188669188177920000000⟩]⟩,
  ⟨1, 6, 3,
    [⟨11, true, 1596672000⟩, ⟨13, true, 448345497600⟩, ⟨15, true, 52306974720000⟩, ⟨17, true, 2845499424768000⟩],
    [⟨11, true, 32646147032197132015129067520000000⟩, ⟨13, true, 3725009084443006088905752576000000⟩,
      ⟨15, true, 97858719125816799874410086400000⟩, ⟨17, true, 667524957496848453677875200000⟩,
      ⟨19, false, 8653601220077451372134400000⟩]⟩,
  ⟨1, 5, 4,
    [⟨4, false, 334764638208000⟩, ⟨6, false, 5579410636800⟩, ⟨8, false, 38320128000⟩],
    [⟨0, true, 618650000568795267072000000⟩, ⟨2, true, 58130603689809708004147200000⟩,
      ⟨4, false, 5867038786692936957847142400000⟩, ⟨6, false, 878934727789922785022705664000000⟩,
      ⟨8, false, 24484610274147849011346800640000000⟩]⟩,
  ⟨1, 4, 5,
    [⟨11, false, 2554675200⟩, ⟨13, false, 597793996800⟩, ⟨15, false, 41845579776000⟩],
    [⟨11, false, 146907661644887094068080803840000000⟩, ⟨13, false, 7094258874304376764826124288000000⟩,
      ⟨15, false, 76234134553207588496867328000000⟩, ⟨17, true, 350615468893789226218291200000⟩,
      ⟨19, true, 7716252734367155512934400000⟩]⟩,
  ⟨1, 3, 6,
    [⟨6, true, 5579410636800⟩, ⟨8, true, 61312204800⟩],
    [⟨0, true, 90735333416756639170560000⟩, ⟨2, false, 58130603689809708004147200000⟩,
      ⟨4, false, 2678159955709090118762496000000⟩, ⟨6, true, 878934727789922785022705664000000⟩,
      ⟨8, true, 62571781811711169695664046080000000⟩]⟩,
  ⟨1, 2, 7,
    [⟨11, true, 5109350400⟩, ⟨13, true, 797058662400⟩],
    [⟨11, true, 375430690870267018173984276480000000⟩, ⟨13, true, 8559150087287581406530633728000000⟩,
      ⟨15, true, 7872544613991371883990220800000⟩, ⟨17, false, 601944843670319434353868800000⟩,
      ⟨19, false, 622399394511636450508800000⟩]⟩,
  ⟨1, 1, 8,
    [⟨8, false, 122624409600⟩],
    [⟨0, false, 181470666833513278341120000⟩, ⟨4, true, 5356319911418180237524992000000⟩,
      ⟨8, false, 125143563623422339391328092160000000⟩]⟩,
  ⟨1, 0, 9,
    [⟨11, false, 20437401600⟩],
    [⟨11, false, 750861381740534036347968552960000000⟩, ⟨13, false, 4813213985516243822743388160000000⟩,
      ⟨15, true, 42850559291345441900199936000000⟩, ⟨17, true, 157538820924064124633088000000⟩,
      ⟨19, false, 1814706668335132783411200000⟩]⟩,
  ⟨0, 10, 0,
    [⟨10, true, 914457600⟩, ⟨12, true, 100590336000⟩, ⟨14, true, 10461394944000⟩, ⟨16, true, 941525544960000⟩,
      ⟨18, true, 64023737057280000⟩, ⟨20, true, 2432902008176640000⟩],
    [⟨10, false, 23801318824636746248239448064000000⟩, ⟨14, true, 140683785926507574394355712000000⟩,
      ⟨16, true, 5680190417689977182119526400000⟩, ⟨18, true, 97535189428243594739712000000⟩,
      ⟨20, true, 928135689165028951326720000⟩]⟩,
  ⟨0, 9, 1,
    [⟨1, false, 243290200817664000⟩, ⟨3, false, 6402373705728000⟩, ⟨5, false, 94152554496000⟩,
      ⟨7, false, 1046139494400⟩, ⟨9, false, 10059033600⟩],
    [⟨1, false, 11645617586464715754700800000⟩, ⟨3, false, 1057708316297146808873779200000⟩,
      ⟨5, false, 51321018686146285066518528000000⟩, ⟨7, false, 899861745118254279904198656000000⟩,
      ⟨9, true, 3264614703219713201512906752000000⟩]⟩,
  ⟨0, 8, 2,
    [⟨10, false, 1016064000⟩, ⟨12, false, 107296358400⟩, ⟨14, false, 9763968614400⟩, ⟨16, false, 669529276416000⟩,
      ⟨18, false, 25609494822912000⟩],
    [⟨10, true, 11900659412318373124119724032000000⟩, ⟨12, false, 7753459920146818853593153536000000⟩,
      ⟨14, false, 411153318024652418124349440000000⟩, ⟨16, false, 5857696368242788969060761600000⟩,
      ⟨18, true, 6920546635779939709747200000⟩, ⟨20, true, 1024307643798905306480640000⟩]⟩,
  ⟨0, 7, 3,
    [⟨3, true, 2845499424768000⟩, ⟨5, true, 73229764608000⟩, ⟨7, true, 1046139494400⟩, ⟨9, true, 11176704000⟩],
    [⟨1, false, 10813252131153973031731200000⟩, ⟨3, true, 71075654091321953904230400000⟩,
      ⟨5, true, 64375491400486408064021299200000⟩, ⟨7, true, 3306468737876376191275892736000000⟩,
      ⟨9, true, 32646147032197132015129067520000000⟩]⟩,
  ⟨0, 6, 4,
    [⟨10, true, 1161216000⟩, ⟨12, true, 114960384000⟩, ⟨14, true, 8369115955200⟩, ⟨16, true, 334764638208000⟩],
    [⟨10, true, 202311210009412343110035308544000000⟩, ⟨12, true, 23260379760440456560779460608000000⟩,
      ⟨14, true, 508244944931678772283834368000000⟩, ⟨16, true, 532517851658435360823705600000⟩,
      ⟨18, false, 67977845024746815199641600000⟩, ⟨20, false, 386214357497947902443520000⟩]⟩,
  ⟨0, 5, 5,
    [⟨5, false, 41845579776000⟩, ⟨7, false, 996323328000⟩, ⟨9, false, 12773376000⟩],
    [⟨1, true, 4656747277008749828505600000⟩, ⟨3, true, 695735397522785517856358400000⟩,
      ⟨5, false, 17638486033879402828686950400000⟩, ⟨7, false, 5210827314754542225491755008000000⟩,
      ⟨9, false, 146907661644887094068080803840000000⟩]⟩,
  ⟨0, 4, 6,
    [⟨10, false, 1393459200⟩, ⟨12, false, 122624409600⟩, ⟨14, false, 5579410636800⟩],
    [⟨10, false, 821145499449967745564260958208000000⟩, ⟨12, false, 38767299600734094267965767680000000⟩,
      ⟨14, false, 258580761456468147302301696000000⟩, ⟨16, true, 4792660664925918247413350400000⟩,
      ⟨18, true, 42238268063600372770406400000⟩, ⟨20, false, 251878928803009501593600000⟩]⟩,
  ⟨0, 3, 7,
    [⟨7, true, 797058662400⟩, ⟨9, true, 15328051200⟩],
    [⟨1, true, 2437106062846769233920000000⟩, ⟨3, false, 444406022746255309720780800000⟩,
      ⟨5, false, 50723103905336813784190156800000⟩, ⟨7, true, 3745936101771337583787245568000000⟩,
      ⟨9, true, 375430690870267018173984276480000000⟩]⟩,
  ⟨0, 2, 8,
    [⟨10, true, 1857945600⟩, ⟨12, true, 122624409600⟩],
    [⟨10, true, 2058814078331078550472712257536000000⟩, ⟨12, true, 38767299600734094267965767680000000⟩,
      ⟨14, false, 240747605493953102660763648000000⟩, ⟨16, false, 4792660664925918247413350400000⟩,
      ⟨18, true, 9240885858692512088064000000⟩, ⟨20, true, 251878928803009501593600000⟩]⟩,
  ⟨0, 1, 9,
    [⟨9, false, 20437401600⟩],
    [⟨1, false, 1814706668335132783411200000⟩, ⟨3, false, 157538820924064124633088000000⟩,
      ⟨5, true, 42850559291345441900199936000000⟩, ⟨7, true, 4813213985516243822743388160000000⟩,
      ⟨9, false, 750861381740534036347968552960000000⟩]⟩,
  ⟨0, 0, 10,
    [⟨10, false, 3715891200⟩],
    [⟨10, false, 4117628156662157100945424515072000000⟩, ⟨14, true, 481495210987906205321527296000000⟩,
      ⟨18, false, 18481771717385024176128000000⟩]⟩]

/-- degree 10: the rows of `V` -/
def certInverse10 : List (List CertEntry) := [
  [⟨0, false, 1086520904⟩, ⟨4, true, 2017416139200⟩, ⟨8, false, 1479890239027200⟩],
  [⟨1, false, 111137146400⟩, ⟨3, true, 256531464000⟩, ⟨5, true, 170532564249600⟩, ⟨7, false, 1350058800384000⟩,
    ⟨9, false, 88793414341632000⟩],
  [⟨2, false, 3588420864000⟩, ⟨6, true, 10418771349504000⟩],
  [⟨1, true, 256531464000⟩, ⟨3, false, 310148198812800⟩, ⟨5, true, 2174590196582400⟩, ⟨7, true, 705795150316032000⟩,
    ⟨9, false, 7708358626375680000⟩],
  [⟨0, true, 2017416139200⟩, ⟨4, false, 22525941806092800⟩, ⟨8, true, 43680698882795520000⟩],
  [⟨1, true, 170532564249600⟩, ⟨3, true, 2174590196582400⟩, ⟨5, false, 1616695634261606400⟩,
    ⟨7, true, 23317210280189952000⟩, ⟨9, true, 2096673546374184960000⟩],
  [⟨2, true, 10418771349504000⟩, ⟨6, false, 157531822804500480000⟩],
  [⟨1, false, 1350058800384000⟩, ⟨3, true, 705795150316032000⟩, ⟨5, true, 23317210280189952000⟩,
    ⟨7, false, 9228739285963653120000⟩, ⟨9, true, 235510075092728217600000⟩],
  [⟨0, false, 1479890239027200⟩, ⟨4, true, 43680698882795520000⟩, ⟨8, false, 1020543658735155609600000⟩],
  [⟨1, false, 88793414341632000⟩, ⟨3, false, 7708358626375680000⟩, ⟨5, true, 2096673546374184960000⟩,
    ⟨7, true, 235510075092728217600000⟩, ⟨9, false, 36739571714465601945600000⟩],
  [⟨10, false, 1108113218347770004930560000⟩, ⟨14, true, 129577316738419630080000⟩, ⟨18, false, 4973711748445440000⟩],
  [⟨11, false, 36739571714465601945600000⟩, ⟨13, false, 235510075092728217600000⟩,
    ⟨15, true, 2096673546374184960000⟩, ⟨17, true, 7708358626375680000⟩, ⟨19, false, 88793414341632000⟩],
  [⟨12, false, 316146676890781900800000⟩, ⟨16, true, 39084067198036224000⟩, ⟨20, false, 2054068432416000⟩],
  [⟨11, false, 235510075092728217600000⟩, ⟨13, false, 9228739285963653120000⟩, ⟨15, false, 23317210280189952000⟩,
    ⟨17, true, 705795150316032000⟩, ⟨19, true, 1350058800384000⟩],
  [⟨10, true, 129577316738419630080000⟩, ⟨14, false, 78707500516362240000⟩, ⟨18, true, 8812567430208000⟩],
  [⟨11, true, 2096673546374184960000⟩, ⟨13, false, 23317210280189952000⟩, ⟨15, false, 1616695634261606400⟩,
    ⟨17, false, 2174590196582400⟩, ⟨19, true, 170532564249600⟩],
  [⟨12, true, 39084067198036224000⟩, ⟨16, false, 15012449498635200⟩, ⟨20, true, 1859069872440⟩],
  [⟨11, true, 7708358626375680000⟩, ⟨13, true, 705795150316032000⟩, ⟨15, false, 2174590196582400⟩,
    ⟨17, false, 310148198812800⟩, ⟨19, false, 256531464000⟩],
  [⟨10, false, 4973711748445440000⟩, ⟨14, true, 8812567430208000⟩, ⟨18, false, 2892344274000⟩],
  [⟨11, false, 88793414341632000⟩, ⟨13, true, 1350058800384000⟩, ⟨15, true, 170532564249600⟩,
    ⟨17, false, 256531464000⟩, ⟨19, false, 111137146400⟩],
  [⟨12, false, 2054068432416000⟩, ⟨16, true, 1859069872440⟩, ⟨20, false, 1016020383⟩]]

/-- degree 10: the denominator -/
def certDen10 : ℕ := 26621376461827470602720260146716265676800000000

/-- degree 11: the rows of `Qᵀ` and `U` -/
def certRows11 : List CertRow := [
  ⟨11, 0, 0,
    [⟨12, true, 221298739200⟩, ⟨14, false, 28768836096000⟩, ⟨16, true, 3452260331520000⟩,
      ⟨18, false, 352130553815040000⟩, ⟨20, true, 26761922089943040000⟩, ⟨22, false, 1124000727777607680000⟩],
    [⟨12, false, 153946930157750474733612750077952000000⟩, ⟨14, false, 845862253614013597437432692736000000⟩,
      ⟨16, true, 496944073998232988494491706982400000⟩, ⟨18, false, 14224399281226944346884931584000000⟩,
      ⟨20, true, 181707380547529365777914265600000⟩, ⟨22, false, 1321888735075827688679669760000⟩]⟩,
  ⟨10, 1, 0,
    [⟨0, false, 1124000727777607680000⟩, ⟨2, true, 21896118073589760000⟩, ⟨4, false, 224083079700480000⟩,
      ⟨6, true, 1569209241600000⟩, ⟨8, false, 7846046208000⟩, ⟨10, true, 20118067200⟩],
    [⟨0, false, 2289047588244116526166179840000⟩, ⟨2, true, 265120009616220077140853391360000⟩,
      ⟨4, false, 17472399764875525971031936204800000⟩, ⟨6, true, 496944073998232988494491706982400000⟩,
      ⟨8, true, 845862253614013597437432692736000000⟩, ⟨10, false, 153946930157750474733612750077952000000⟩]⟩,
  ⟨10, 0, 1,
    [⟨11, true, 20118067200⟩, ⟨13, false, 2615348736000⟩, ⟨15, true, 313841848320000⟩,
      ⟨17, false, 32011868528640000⟩, ⟨19, true, 2432902008176640000⟩, ⟨21, false, 102181884343418880000⟩],
    [⟨11, false, 923681580946502848401676500467712000000⟩, ⟨15, true, 4003748000439664361203848078950400000⟩,
      ⟨17, false, 142635595707461116430625905049600000⟩, ⟨19, true, 2191400102349686930065588224000000⟩,
      ⟨21, false, 18867142289346708522569564160000⟩]⟩,
  ⟨9, 2, 0,
    [⟨12, true, 20118067200⟩, ⟨14, false, 523069747200⟩, ⟨16, false, 439378587648000⟩,
      ⟨18, true, 121645100408832000⟩, ⟨20, false, 17030314057236480000⟩, ⟨22, true, 1124000727777607680000⟩],
    [⟨12, true, 76973465078875237366806375038976000000⟩, ⟨14, false, 35949145778595577891090889441280000000⟩,
      ⟨16, true, 812380206075125559205534315315200000⟩, ⟨18, true, 2159574789659961186267955200000000⟩,
      ⟨20, false, 229005857168783673583825059840000⟩, ⟨22, true, 3112431605791844721450024960000⟩]⟩,
  ⟨9, 1, 1,
    [⟨1, false, 102181884343418880000⟩, ⟨3, true, 1946321606541312000⟩, ⟨5, false, 19207121117184000⟩,
      ⟨7, true, 125536739328000⟩, ⟨9, false, 523069747200⟩],
    [⟨1, false, 31173031148660910953437593600000⟩, ⟨3, true, 3149924281936083442258359091200000⟩,
      ⟨5, false, 174228128967227723359339098931200000⟩, ⟨7, true, 3573397029302710074788312147558400000⟩,
      ⟨9, true, 17866985146513550373941560737792000000⟩]⟩,
  ⟨9, 0, 2,
    [⟨12, false, 241416806400⟩, ⟨14, true, 29291905843200⟩, ⟨16, false, 3012881743872000⟩,
      ⟨18, true, 230485453406208000⟩, ⟨20, false, 9731608032706560000⟩],
    [⟨12, true, 76973465078875237366806375038976000000⟩, ⟨14, true, 36795008032209591488528322134016000000⟩,
      ⟨16, false, 1309324280073358547700026022297600000⟩, ⟨18, true, 12064824491566983160616976384000000⟩,
      ⟨20, true, 47298476621254307805910794240000⟩, ⟨22, false, 1790542870716017032770355200000⟩]⟩,
  ⟨8, 3, 0,
    [⟨0, true, 1124000727777607680000⟩, ⟨2, false, 12164510040883200000⟩, ⟨4, true, 44816615940096000⟩,
      ⟨6, true, 104613949440000⟩, ⟨8, false, 1917922406400⟩, ⟨10, true, 6706022400⟩],
    [⟨0, true, 4092514776832481469734584320000⟩, ⟨2, false, 223792567851990504123641364480000⟩,
      ⟨4, false, 4140624730041365581137759436800000⟩, ⟨6, true, 1115480846953480431620614363545600000⟩,
      ⟨8, false, 36795008032209591488528322134016000000⟩, ⟨10, true, 76973465078875237366806375038976000000⟩]⟩,
  ⟨8, 2, 1,
    [⟨11, true, 2235340800⟩, ⟨13, false, 174356582400⟩, ⟨15, false, 20922789888000⟩, ⟨17, true, 9247873130496000⟩,
      ⟨19, false, 1459741204905984000⟩, ⟨21, true, 102181884343418880000⟩],
    [⟨11, true, 461840790473251424200838250233856000000⟩, ⟨13, false, 254604538337818092828667240513536000000⟩,
      ⟨15, true, 7697346507887523736680637503897600000⟩, ⟨17, false, 4457362365858159888457059532800000⟩,
      ⟨19, false, 2346889487205204135476880998400000⟩, ⟨21, true, 39689268072490855592708014080000⟩]⟩,
  ⟨8, 1, 2,
    [⟨2, false, 9731608032706560000⟩, ⟨4, true, 179266463760384000⟩, ⟨6, false, 1673823191040000⟩,
      ⟨8, true, 9763968614400⟩, ⟨10, false, 26824089600⟩],
    [⟨0, false, 1803467188588364943568404480000⟩, ⟨2, false, 41327441764229573017212026880000⟩,
      ⟨4, true, 21613024494916891552169695641600000⟩, ⟨6, false, 1612424920951713420115106070528000000⟩,
      ⟨8, true, 35949145778595577891090889441280000000⟩, ⟨10, true, 76973465078875237366806375038976000000⟩]⟩,
  ⟨8, 0, 3,
    [⟨11, false, 22353408000⟩, ⟨13, true, 2789705318400⟩, ⟨15, false, 292919058432000⟩,
      ⟨17, true, 22763995398144000⟩, ⟨19, false, 973160803270656000⟩],
    [⟨11, true, 461840790473251424200838250233856000000⟩, ⟨13, true, 254604538337818092828667240513536000000⟩,
      ⟨15, false, 11701094508327188097884485582848000000⟩, ⟨17, true, 147092958073319276319082964582400000⟩,
      ⟨19, true, 155489384855517205411292774400000⟩, ⟨21, false, 20822125783144147070138449920000⟩]⟩,
  ⟨7, 4, 0,
    [⟨12, true, 6706022400⟩, ⟨14, true, 523069747200⟩, ⟨16, false, 230150688768000⟩, ⟨18, true, 6402373705728000⟩,
      ⟨20, true, 7298706024529920000⟩, ⟨22, false, 1124000727777607680000⟩],
    [⟨12, true, 1308548906340879035235708375662592000000⟩, ⟨14, false, 29182247749683469111591427899392000000⟩,
      ⟨16, false, 738367258883899369429758954700800000⟩, ⟨18, true, 12940172139642487428117587558400000⟩,
      ⟨20, true, 131559780695004372336786800640000⟩, ⟨22, false, 4502550242325752751398584320000⟩]⟩,
  ⟨7, 3, 1,
    [⟨1, true, 102181884343418880000⟩, ⟨3, false, 973160803270656000⟩, ⟨5, true, 2134124568576000⟩,
      ⟨7, true, 20922789888000⟩, ⟨9, false, 174356582400⟩],
    [⟨1, true, 50959140894852530717526589440000⟩, ⟨3, false, 2227995223808449264036400332800000⟩,
      ⟨5, false, 80388921264950673076032582451200000⟩, ⟨7, true, 10720191087908130224364936442675200000⟩,
      ⟨9, false, 196536836611649054113357168115712000000⟩]⟩,
  ⟨7, 2, 2,
    [⟨12, false, 26824089600⟩, ⟨16, true, 669529276416000⟩, ⟨18, false, 128047474114560000⟩,
      ⟨20, true, 9731608032706560000⟩],
    [⟨12, false, 1385522371419754272602514750701568000000⟩, ⟨14, true, 65131393528279047002682317340672000000⟩,
      ⟨16, false, 74012947191226189775775360614400000⟩, ⟨18, false, 15099746929302448614385542758400000⟩,
      ⟨20, true, 97446076473779301247038259200000⟩, ⟨22, true, 1390118636533908029948559360000⟩]⟩,
  ⟨7, 1, 3,
    [⟨3, false, 973160803270656000⟩, ⟨5, true, 17072996548608000⟩, ⟨7, false, 146459529216000⟩,
      ⟨9, true, 697426329600⟩],
    [⟨1, false, 19786109746191619764088995840000⟩, ⟨3, false, 921929058127634178221958758400000⟩,
      ⟨5, true, 254617050232178396435371681382400000⟩, ⟨7, false, 14293588117210840299153248590233600000⟩,
      ⟨9, true, 178669851465135503739415607377920000000⟩]⟩,
  ⟨7, 0, 4,
    [⟨12, true, 268240896000⟩, ⟨14, false, 29291905843200⟩, ⟨16, true, 2343352467456000⟩,
      ⟨18, false, 102437979291648000⟩],
    [⟨12, true, 1308548906340879035235708375662592000000⟩, ⟨14, false, 101926401560488638491210639474688000000⟩,
      ⟨16, true, 1383337227264584737475801382912000000⟩, ⟨18, true, 3034922437735465453768566374400000⟩,
      ⟨20, false, 144744553095033609052949053440000⟩, ⟨22, true, 400424234182109002821795840000⟩]⟩,
  ⟨6, 5, 0,
    [⟨0, false, 1124000727777607680000⟩, ⟨2, true, 2432902008176640000⟩, ⟨4, true, 32011868528640000⟩,
      ⟨6, false, 104613949440000⟩, ⟨8, false, 871782912000⟩, ⟨10, true, 4790016000⟩],
    [⟨0, false, 4902810462321664445707714560000⟩, ⟨2, true, 53360440943106830434031370240000⟩,
      ⟨4, true, 16775576966078578494929475993600000⟩, ⟨6, false, 435266618005544497014678906470400000⟩,
      ⟨8, false, 43561906061121700268027783675904000000⟩, ⟨10, true, 1308548906340879035235708375662592000000⟩]⟩,
  ⟨6, 4, 1,
    [⟨11, true, 958003200⟩, ⟨13, false, 24908083200⟩, ⟨15, false, 20922789888000⟩, ⟨17, true, 2134124568576000⟩,
      ⟨19, true, 486580401635328000⟩, ⟨21, false, 102181884343418880000⟩],
    [⟨11, true, 7851293438045274211414250253975552000000⟩, ⟨13, false, 254604538337818092828667240513536000000⟩,
      ⟨15, false, 4934196479415079318385024040960000000⟩, ⟨17, true, 138178233341602956542168845516800000⟩,
      ⟨19, true, 975066961169978264733194649600000⟩, ⟨21, false, 52660428396416717701974589440000⟩]⟩,
  ⟨6, 3, 2,
    [⟨2, true, 9731608032706560000⟩, ⟨4, false, 76828484468736000⟩, ⟨8, true, 2789705318400⟩,
      ⟨10, false, 11496038400⟩],
    [⟨0, true, 810295685489182975973130240000⟩, ⟨2, true, 170432126908883673689609994240000⟩,
      ⟨4, false, 12634952236037212913791716556800000⟩, ⟨6, false, 680214228947935934605935457075200000⟩,
      ⟨8, true, 80356914093331291756556105809920000000⟩, ⟨10, false, 1385522371419754272602514750701568000000⟩]⟩,
  ⟨6, 2, 3,
    [⟨11, false, 3193344000⟩, ⟨13, true, 199264665600⟩, ⟨15, true, 41845579776000⟩, ⟨17, false, 11381997699072000⟩,
      ⟨19, true, 973160803270656000⟩],
    [⟨11, false, 8313134228518525635615088504209408000000⟩, ⟨13, true, 509209076675636185657334481027072000000⟩,
      ⟨15, false, 2763150028472444418295613462937600000⟩, ⟨17, false, 133720870975744796653711785984000000⟩,
      ⟨19, true, 1371822526035225870743686348800000⟩, ⟨21, true, 12971160323925862109266575360000⟩]⟩,
  ⟨6, 1, 4,
    [⟨4, false, 102437979291648000⟩, ⟨6, true, 1673823191040000⟩, ⟨8, false, 12553673932800⟩,
      ⟨10, true, 38320128000⟩],
    [⟨0, true, 993171503099181967595274240000⟩, ⟨2, false, 129104685144654100672397967360000⟩,
      ⟨4, false, 8978072258879678638377979084800000⟩, ⟨6, true, 2292639149899649354721041527603200000⟩,
      ⟨8, false, 116306059871926869647646995251200000000⟩, ⟨10, true, 1308548906340879035235708375662592000000⟩]⟩,
  ⟨6, 0, 5,
    [⟨11, true, 25546752000⟩, ⟨13, false, 2988969984000⟩, ⟨15, true, 251073478656000⟩,
      ⟨17, false, 11381997699072000⟩],
    [⟨11, true, 7851293438045274211414250253975552000000⟩, ⟨13, false, 763813615013454278486001721540608000000⟩,
      ⟨15, true, 14464244536799632516180099045785600000⟩, ⟨17, false, 13372087097574479665371178598400000⟩,
      ⟨19, false, 1527311910890743076154979123200000⟩, ⟨21, true, 7850965459218284960871874560000⟩]⟩,
  ⟨5, 6, 0,
    [⟨12, true, 4790016000⟩, ⟨14, true, 871782912000⟩, ⟨16, false, 104613949440000⟩, ⟨18, false, 32011868528640000⟩,
      ⟨20, true, 2432902008176640000⟩, ⟨22, true, 1124000727777607680000⟩],
    [⟨12, true, 1308548906340879035235708375662592000000⟩, ⟨14, true, 43561906061121700268027783675904000000⟩,
      ⟨16, false, 435266618005544497014678906470400000⟩, ⟨18, false, 16775576966078578494929475993600000⟩,
      ⟨20, true, 53360440943106830434031370240000⟩, ⟨22, true, 4902810462321664445707714560000⟩]⟩,
  ⟨5, 5, 1,
    [⟨1, false, 102181884343418880000⟩, ⟨5, true, 3556874280960000⟩, ⟨9, false, 124540416000⟩],
    [⟨1, false, 58169333429481680292575969280000⟩, ⟨5, true, 187678415404554100566613032960000000⟩,
      ⟨9, false, 428807643516325208974597457707008000000⟩]⟩,
  ⟨5, 4, 2,
    [⟨12, false, 11496038400⟩, ⟨14, false, 1394852659200⟩, ⟨16, true, 334764638208000⟩,
      ⟨18, true, 25609494822912000⟩, ⟨20, false, 9731608032706560000⟩],
    [⟨12, false, 2617097812681758070471416751325184000000⟩, ⟨14, false, 14379658311438231156436355776512000000⟩,
      ⟨16, true, 1173633876889443866444437861171200000⟩, ⟨18, true, 3835404826436091066811888435200000⟩,
      ⟨20, false, 184920221638111202770818170880000⟩, ⟨22, false, 400260219995911694309130240000⟩]⟩,
  ⟨5, 3, 3,
    [⟨3, true, 973160803270656000⟩, ⟨5, false, 5690998849536000⟩, ⟨7, false, 20922789888000⟩,
      ⟨9, true, 298896998400⟩],
    [⟨1, true, 7210192534629149575049379840000⟩, ⟨3, true, 2227995223808449264036400332800000⟩,
      ⟨5, false, 107289494139603427490580450508800000⟩, ⟨7, false, 10720191087908130224364936442675200000⟩,
      ⟨9, true, 625344480127974263087954625822720000000⟩]⟩,
  ⟨5, 2, 4,
    [⟨12, true, 38320128000⟩, ⟨14, true, 1394852659200⟩, ⟨16, false, 1004293914624000⟩,
      ⟨18, true, 102437979291648000⟩],
    [⟨12, true, 4002620184101512343073931502026752000000⟩, ⟨14, false, 50751735216840815846245961564160000000⟩,
      ⟨16, false, 1099620929698217676668662500556800000⟩, ⟨18, true, 11264342102866357547573654323200000⟩,
      ⟨20, true, 87474145164331901523779911680000⟩, ⟨22, false, 989858416537996335639429120000⟩]⟩,
  ⟨5, 1, 5,
    [⟨5, false, 11381997699072000⟩, ⟨7, true, 167382319104000⟩, ⟨9, false, 996323328000⟩],
    [⟨1, true, 12575917211562470189039616000000⟩, ⟨3, false, 1306066165680815085814441574400000⟩,
      ⟨5, false, 147327556092574968944791230873600000⟩, ⟨7, true, 25013779205118970523518185032908800000⟩,
      ⟨9, false, 804014331593109766827370233200640000000⟩]⟩,
  ⟨5, 0, 6,
    [⟨12, false, 306561024000⟩, ⟨14, true, 27897053184000⟩, ⟨16, false, 1339058552832000⟩],
    [⟨12, false, 5311169090442391378309639877689344000000⟩, ⟨14, true, 152678136777329454337456601038848000000⟩,
      ⟨16, false, 283716297566367060807138882355200000⟩, ⟨18, false, 14299264540601823001342220697600000⟩,
      ⟨20, true, 57270407930701707529169141760000⟩, ⟨22, true, 589434182355887332817633280000⟩]⟩,
  ⟨4, 7, 0,
    [⟨0, true, 1124000727777607680000⟩, ⟨2, true, 7298706024529920000⟩, ⟨4, false, 6402373705728000⟩,
      ⟨6, false, 230150688768000⟩, ⟨8, false, 523069747200⟩, ⟨10, true, 6706022400⟩],
    [⟨0, true, 4502550242325752751398584320000⟩, ⟨2, true, 131559780695004372336786800640000⟩,
      ⟨4, false, 12940172139642487428117587558400000⟩, ⟨6, false, 738367258883899369429758954700800000⟩,
      ⟨8, true, 29182247749683469111591427899392000000⟩, ⟨10, true, 1308548906340879035235708375662592000000⟩]⟩,
  ⟨4, 6, 1,
    [⟨11, true, 958003200⟩, ⟨13, true, 24908083200⟩, ⟨15, false, 20922789888000⟩, ⟨17, false, 2134124568576000⟩,
      ⟨19, true, 486580401635328000⟩, ⟨21, true, 102181884343418880000⟩],
    [⟨11, true, 7851293438045274211414250253975552000000⟩, ⟨13, true, 254604538337818092828667240513536000000⟩,
      ⟨15, false, 4934196479415079318385024040960000000⟩, ⟨17, false, 138178233341602956542168845516800000⟩,
      ⟨19, true, 975066961169978264733194649600000⟩, ⟨21, true, 52660428396416717701974589440000⟩]⟩,
  ⟨4, 5, 2,
    [⟨2, false, 9731608032706560000⟩, ⟨4, false, 25609494822912000⟩, ⟨6, true, 334764638208000⟩,
      ⟨8, true, 1394852659200⟩, ⟨10, false, 11496038400⟩],
    [⟨0, true, 400260219995911694309130240000⟩, ⟨2, false, 184920221638111202770818170880000⟩,
      ⟨4, false, 3835404826436091066811888435200000⟩, ⟨6, true, 1173633876889443866444437861171200000⟩,
      ⟨8, true, 14379658311438231156436355776512000000⟩, ⟨10, false, 2617097812681758070471416751325184000000⟩]⟩,
  ⟨4, 4, 3,
    [⟨11, false, 1916006400⟩, ⟨15, true, 41845579776000⟩, ⟨19, false, 973160803270656000⟩],
    [⟨11, false, 15702586876090548422828500507951104000000⟩, ⟨15, true, 9868392958830158636770048081920000000⟩,
      ⟨19, false, 1950133922339956529466389299200000⟩]⟩,
  ⟨4, 3, 4,
    [⟨4, true, 102437979291648000⟩, ⟨6, false, 334764638208000⟩, ⟨8, false, 4184557977600⟩, ⟨10, true, 22992076800⟩],
    [⟨0, false, 1210555905485094670282260480000⟩, ⟨2, true, 14488094729227529081208176640000⟩,
      ⟨4, true, 16470357062473303980603604992000000⟩, ⟨6, false, 493419647941507931838502404096000000⟩,
      ⟨8, false, 94736572404769522912992461586432000000⟩, ⟨10, true, 4002620184101512343073931502026752000000⟩]⟩,
  ⟨4, 2, 5,
    [⟨11, true, 5109350400⟩, ⟨13, false, 199264665600⟩, ⟨15, false, 83691159552000⟩, ⟨17, true, 11381997699072000⟩],
    [⟨11, true, 24015721104609074058443589012160512000000⟩, ⟨13, false, 509209076675636185657334481027072000000⟩,
      ⟨15, false, 7105242930357714218474434618982400000⟩, ⟨17, true, 133720870975744796653711785984000000⟩,
      ⟨19, true, 578311396304730658722702950400000⟩, ⟨21, false, 12971160323925862109266575360000⟩]⟩,
  ⟨4, 1, 6,
    [⟨6, false, 1339058552832000⟩, ⟨8, true, 16738231910400⟩, ⟨10, false, 61312204800⟩],
    [⟨0, true, 217384402385912702686986240000⟩, ⟨2, true, 114616590415426571591189790720000⟩,
      ⟨4, false, 7492284803593625342225625907200000⟩, ⟨6, false, 1799219501958141422882539123507200000⟩,
      ⟨8, true, 211042632276696392560639456837632000000⟩, ⟨10, false, 5311169090442391378309639877689344000000⟩]⟩,
  ⟨4, 0, 7,
    [⟨11, false, 30656102400⟩, ⟨13, true, 3188234649600⟩, ⟨15, false, 167382319104000⟩],
    [⟨11, false, 31867014542654348269857839266136064000000⟩, ⟨13, true, 1273022691689090464143336202567680000000⟩,
      ⟨15, false, 7359001606441918297705664426803200000⟩, ⟨17, false, 120348783878170316988340607385600000⟩,
      ⟨19, true, 949000514586012417432276172800000⟩, ⟨21, true, 5120194864707577148394700800000⟩]⟩,
  ⟨3, 8, 0,
    [⟨12, true, 6706022400⟩, ⟨14, true, 1917922406400⟩, ⟨16, true, 104613949440000⟩, ⟨18, false, 44816615940096000⟩,
      ⟨20, false, 12164510040883200000⟩, ⟨22, false, 1124000727777607680000⟩],
    [⟨12, true, 76973465078875237366806375038976000000⟩, ⟨14, true, 36795008032209591488528322134016000000⟩,
      ⟨16, true, 1115480846953480431620614363545600000⟩, ⟨18, true, 4140624730041365581137759436800000⟩,
      ⟨20, false, 223792567851990504123641364480000⟩, ⟨22, false, 4092514776832481469734584320000⟩]⟩,
  ⟨3, 7, 1,
    [⟨1, true, 102181884343418880000⟩, ⟨3, true, 973160803270656000⟩, ⟨5, true, 2134124568576000⟩,
      ⟨7, false, 20922789888000⟩, ⟨9, false, 174356582400⟩],
    [⟨1, true, 50959140894852530717526589440000⟩, ⟨3, true, 2227995223808449264036400332800000⟩,
      ⟨5, false, 80388921264950673076032582451200000⟩, ⟨7, false, 10720191087908130224364936442675200000⟩,
      ⟨9, false, 196536836611649054113357168115712000000⟩]⟩,
  ⟨3, 6, 2,
    [⟨12, false, 11496038400⟩, ⟨14, false, 2789705318400⟩, ⟨18, true, 76828484468736000⟩,
      ⟨20, true, 9731608032706560000⟩],
    [⟨12, false, 1385522371419754272602514750701568000000⟩, ⟨14, false, 80356914093331291756556105809920000000⟩,
      ⟨16, false, 680214228947935934605935457075200000⟩, ⟨18, true, 12634952236037212913791716556800000⟩,
      ⟨20, true, 170432126908883673689609994240000⟩, ⟨22, false, 810295685489182975973130240000⟩]⟩,
  ⟨3, 5, 3,
    [⟨3, false, 973160803270656000⟩, ⟨5, false, 5690998849536000⟩, ⟨7, true, 20922789888000⟩,
      ⟨9, true, 298896998400⟩],
    [⟨1, true, 7210192534629149575049379840000⟩, ⟨3, false, 2227995223808449264036400332800000⟩,
      ⟨5, false, 107289494139603427490580450508800000⟩, ⟨7, true, 10720191087908130224364936442675200000⟩,
      ⟨9, true, 625344480127974263087954625822720000000⟩]⟩,
  ⟨3, 4, 4,
    [⟨12, true, 22992076800⟩, ⟨14, true, 4184557977600⟩, ⟨16, false, 334764638208000⟩,
      ⟨18, false, 102437979291648000⟩],
    [⟨12, true, 4002620184101512343073931502026752000000⟩, ⟨14, true, 94736572404769522912992461586432000000⟩,
      ⟨16, false, 493419647941507931838502404096000000⟩, ⟨18, false, 16470357062473303980603604992000000⟩,
      ⟨20, true, 14488094729227529081208176640000⟩, ⟨22, true, 1210555905485094670282260480000⟩]⟩,
  ⟨3, 3, 5,
    [⟨5, true, 11381997699072000⟩, ⟨9, false, 597793996800⟩],
    [⟨1, false, 14420385069258299150098759680000⟩, ⟨5, true, 214578988279206854981160901017600000⟩,
      ⟨9, false, 1250688960255948526175909251645440000000⟩]⟩,
  ⟨3, 2, 6,
    [⟨12, false, 61312204800⟩, ⟨14, false, 5579410636800⟩, ⟨16, true, 1339058552832000⟩],
    [⟨12, false, 8005240368203024686147863004053504000000⟩, ⟨14, false, 43984837187928707066746500022272000000⟩,
      ⟨16, true, 1593040577639725608507164904652800000⟩, ⟨18, true, 5206014959606946433029950668800000⟩,
      ⟨20, false, 101962239893559430604988088320000⟩, ⟨22, false, 220697488947098334642831360000⟩]⟩,
  ⟨3, 1, 7,
    [⟨7, false, 167382319104000⟩, ⟨9, true, 1594117324800⟩],
    [⟨1, true, 1844467857695828961059143680000⟩, ⟨3, true, 1306066165680815085814441574400000⟩,
      ⟨5, false, 67251432186631886036369670144000000⟩, ⟨7, false, 25013779205118970523518185032908800000⟩,
      ⟨9, true, 2054703291849058293003279484846080000000⟩]⟩,
  ⟨3, 0, 8,
    [⟨12, true, 367873228800⟩, ⟨14, false, 22317642547200⟩],
    [⟨12, true, 13316409458645416064457502881742848000000⟩, ⟨14, false, 108693299589400747270710101016576000000⟩,
      ⟨16, false, 1309324280073358547700026022297600000⟩, ⟨18, true, 9093249580994876568312270028800000⟩,
      ⟨20, true, 44691831962857723075818946560000⟩, ⟨22, false, 368736693408788998174801920000⟩]⟩,
  ⟨2, 9, 0,
    [⟨0, false, 1124000727777607680000⟩, ⟨2, false, 17030314057236480000⟩, ⟨4, false, 121645100408832000⟩,
      ⟨6, false, 439378587648000⟩, ⟨8, true, 523069747200⟩, ⟨10, true, 20118067200⟩],
    [⟨0, false, 3112431605791844721450024960000⟩, ⟨2, false, 229005857168783673583825059840000⟩,
      ⟨4, false, 2159574789659961186267955200000000⟩, ⟨6, true, 812380206075125559205534315315200000⟩,
      ⟨8, true, 35949145778595577891090889441280000000⟩, ⟨10, true, 76973465078875237366806375038976000000⟩]⟩,
  ⟨2, 8, 1,
    [⟨11, true, 2235340800⟩, ⟨13, true, 174356582400⟩, ⟨15, false, 20922789888000⟩, ⟨17, false, 9247873130496000⟩,
      ⟨19, false, 1459741204905984000⟩, ⟨21, false, 102181884343418880000⟩],
    [⟨11, true, 461840790473251424200838250233856000000⟩, ⟨13, true, 254604538337818092828667240513536000000⟩,
      ⟨15, true, 7697346507887523736680637503897600000⟩, ⟨17, true, 4457362365858159888457059532800000⟩,
      ⟨19, false, 2346889487205204135476880998400000⟩, ⟨21, false, 39689268072490855592708014080000⟩]⟩,
  ⟨2, 7, 2,
    [⟨2, true, 9731608032706560000⟩, ⟨4, true, 128047474114560000⟩, ⟨6, true, 669529276416000⟩,
      ⟨10, false, 26824089600⟩],
    [⟨0, false, 1390118636533908029948559360000⟩, ⟨2, true, 97446076473779301247038259200000⟩,
      ⟨4, true, 15099746929302448614385542758400000⟩, ⟨6, false, 74012947191226189775775360614400000⟩,
      ⟨8, false, 65131393528279047002682317340672000000⟩, ⟨10, false, 1385522371419754272602514750701568000000⟩]⟩,
  ⟨2, 6, 3,
    [⟨11, false, 3193344000⟩, ⟨13, false, 199264665600⟩, ⟨15, true, 41845579776000⟩, ⟨17, true, 11381997699072000⟩,
      ⟨19, true, 973160803270656000⟩],
    [⟨11, false, 8313134228518525635615088504209408000000⟩, ⟨13, false, 509209076675636185657334481027072000000⟩,
      ⟨15, false, 2763150028472444418295613462937600000⟩, ⟨17, true, 133720870975744796653711785984000000⟩,
      ⟨19, true, 1371822526035225870743686348800000⟩, ⟨21, false, 12971160323925862109266575360000⟩]⟩,
  ⟨2, 5, 4,
    [⟨4, false, 102437979291648000⟩, ⟨6, false, 1004293914624000⟩, ⟨8, false, 1394852659200⟩,
      ⟨10, true, 38320128000⟩],
    [⟨0, true, 989858416537996335639429120000⟩, ⟨2, true, 87474145164331901523779911680000⟩,
      ⟨4, false, 11264342102866357547573654323200000⟩, ⟨6, false, 1099620929698217676668662500556800000⟩,
      ⟨8, true, 50751735216840815846245961564160000000⟩, ⟨10, true, 4002620184101512343073931502026752000000⟩]⟩,
  ⟨2, 4, 5,
    [⟨11, true, 5109350400⟩, ⟨13, true, 199264665600⟩, ⟨15, false, 83691159552000⟩, ⟨17, false, 11381997699072000⟩],
    [⟨11, true, 24015721104609074058443589012160512000000⟩, ⟨13, true, 509209076675636185657334481027072000000⟩,
      ⟨15, false, 7105242930357714218474434618982400000⟩, ⟨17, false, 133720870975744796653711785984000000⟩,
      ⟨19, true, 578311396304730658722702950400000⟩, ⟨21, true, 12971160323925862109266575360000⟩]⟩,
  ⟨2, 3, 6,
    [⟨6, true, 1339058552832000⟩, ⟨8, true, 5579410636800⟩, ⟨10, false, 61312204800⟩],
    [⟨0, true, 220697488947098334642831360000⟩, ⟨2, false, 101962239893559430604988088320000⟩,
      ⟨4, false, 5206014959606946433029950668800000⟩, ⟨6, true, 1593040577639725608507164904652800000⟩,
      ⟨8, true, 43984837187928707066746500022272000000⟩, ⟨10, false, 8005240368203024686147863004053504000000⟩]⟩,
  ⟨2, 2, 7,
    [⟨11, false, 10218700800⟩, ⟨15, true, 167382319104000⟩],
    [⟨11, false, 48031442209218148116887178024321024000000⟩, ⟨15, true, 14210485860715428436948869237964800000⟩,
      ⟨19, false, 1156622792609461317445405900800000⟩]⟩,
  ⟨2, 1, 8,
    [⟨8, false, 22317642547200⟩, ⟨10, true, 122624409600⟩],
    [⟨0, false, 438081891333011037329817600000⟩, ⟨2, false, 12654350521867140986201702400000⟩,
      ⟨4, true, 12698299763200571775255576576000000⟩, ⟨6, true, 206178924318415814375374218854400000⟩,
      ⟨8, false, 255027469464625099627385956859904000000⟩, ⟨10, true, 13316409458645416064457502881742848000000⟩]⟩,
  ⟨2, 0, 9,
    [⟨11, true, 40874803200⟩, ⟨13, false, 3188234649600⟩],
    [⟨11, true, 79898456751872496386745017290457088000000⟩, ⟨13, false, 1273022691689090464143336202567680000000⟩,
      ⟨15, false, 6851484254273510139243204811161600000⟩, ⟨17, true, 120348783878170316988340607385600000⟩,
      ⟨19, true, 207622278023448900013129728000000⟩, ⟨21, false, 5120194864707577148394700800000⟩]⟩,
  ⟨1, 10, 0,
    [⟨12, true, 20118067200⟩, ⟨14, true, 7846046208000⟩, ⟨16, true, 1569209241600000⟩,
      ⟨18, true, 224083079700480000⟩, ⟨20, true, 21896118073589760000⟩, ⟨22, true, 1124000727777607680000⟩],
    [⟨12, false, 153946930157750474733612750077952000000⟩, ⟨14, false, 845862253614013597437432692736000000⟩,
      ⟨16, true, 496944073998232988494491706982400000⟩, ⟨18, true, 17472399764875525971031936204800000⟩,
      ⟨20, true, 265120009616220077140853391360000⟩, ⟨22, true, 2289047588244116526166179840000⟩]⟩,
  ⟨1, 9, 1,
    [⟨1, false, 102181884343418880000⟩, ⟨3, false, 1946321606541312000⟩, ⟨5, false, 19207121117184000⟩,
      ⟨7, false, 125536739328000⟩, ⟨9, false, 523069747200⟩],
    [⟨1, false, 31173031148660910953437593600000⟩, ⟨3, false, 3149924281936083442258359091200000⟩,
      ⟨5, false, 174228128967227723359339098931200000⟩, ⟨7, false, 3573397029302710074788312147558400000⟩,
      ⟨9, true, 17866985146513550373941560737792000000⟩]⟩,
  ⟨1, 8, 2,
    [⟨12, false, 26824089600⟩, ⟨14, false, 9763968614400⟩, ⟨16, false, 1673823191040000⟩,
      ⟨18, false, 179266463760384000⟩, ⟨20, false, 9731608032706560000⟩],
    [⟨12, true, 76973465078875237366806375038976000000⟩, ⟨14, false, 35949145778595577891090889441280000000⟩,
      ⟨16, false, 1612424920951713420115106070528000000⟩, ⟨18, false, 21613024494916891552169695641600000⟩,
      ⟨20, false, 41327441764229573017212026880000⟩, ⟨22, true, 1803467188588364943568404480000⟩]⟩,
  ⟨1, 7, 3,
    [⟨3, true, 973160803270656000⟩, ⟨5, true, 17072996548608000⟩, ⟨7, true, 146459529216000⟩,
      ⟨9, true, 697426329600⟩],
    [⟨1, false, 19786109746191619764088995840000⟩, ⟨3, true, 921929058127634178221958758400000⟩,
      ⟨5, true, 254617050232178396435371681382400000⟩, ⟨7, true, 14293588117210840299153248590233600000⟩,
      ⟨9, true, 178669851465135503739415607377920000000⟩]⟩,
  ⟨1, 6, 4,
    [⟨12, true, 38320128000⟩, ⟨14, true, 12553673932800⟩, ⟨16, true, 1673823191040000⟩,
      ⟨18, true, 102437979291648000⟩],
    [⟨12, true, 1308548906340879035235708375662592000000⟩, ⟨14, true, 116306059871926869647646995251200000000⟩,
      ⟨16, true, 2292639149899649354721041527603200000⟩, ⟨18, true, 8978072258879678638377979084800000⟩,
      ⟨20, false, 129104685144654100672397967360000⟩, ⟨22, false, 993171503099181967595274240000⟩]⟩,
  ⟨1, 5, 5,
    [⟨5, false, 11381997699072000⟩, ⟨7, false, 167382319104000⟩, ⟨9, false, 996323328000⟩],
    [⟨1, true, 12575917211562470189039616000000⟩, ⟨3, true, 1306066165680815085814441574400000⟩,
      ⟨5, false, 147327556092574968944791230873600000⟩, ⟨7, false, 25013779205118970523518185032908800000⟩,
      ⟨9, false, 804014331593109766827370233200640000000⟩]⟩,
  ⟨1, 4, 6,
    [⟨12, false, 61312204800⟩, ⟨14, false, 16738231910400⟩, ⟨16, false, 1339058552832000⟩],
    [⟨12, false, 5311169090442391378309639877689344000000⟩, ⟨14, false, 211042632276696392560639456837632000000⟩,
      ⟨16, false, 1799219501958141422882539123507200000⟩, ⟨18, true, 7492284803593625342225625907200000⟩,
      ⟨20, true, 114616590415426571591189790720000⟩, ⟨22, false, 217384402385912702686986240000⟩]⟩,
  ⟨1, 3, 7,
    [⟨7, true, 167382319104000⟩, ⟨9, true, 1594117324800⟩],
    [⟨1, true, 1844467857695828961059143680000⟩, ⟨3, false, 1306066165680815085814441574400000⟩,
      ⟨5, false, 67251432186631886036369670144000000⟩, ⟨7, true, 25013779205118970523518185032908800000⟩,
      ⟨9, true, 2054703291849058293003279484846080000000⟩]⟩,
  ⟨1, 2, 8,
    [⟨12, true, 122624409600⟩, ⟨14, true, 22317642547200⟩],
    [⟨12, true, 13316409458645416064457502881742848000000⟩, ⟨14, true, 255027469464625099627385956859904000000⟩,
      ⟨16, true, 206178924318415814375374218854400000⟩, ⟨18, false, 12698299763200571775255576576000000⟩,
      ⟨20, false, 12654350521867140986201702400000⟩, ⟨22, true, 438081891333011037329817600000⟩]⟩,
  ⟨1, 1, 9,
    [⟨9, false, 3188234649600⟩],
    [⟨1, false, 3688935715391657922118287360000⟩, ⟨5, true, 134502864373263772072739340288000000⟩,
      ⟨9, false, 4109406583698116586006558969692160000000⟩]⟩,
  ⟨1, 0, 10,
    [⟨12, false, 490497638400⟩],
    [⟨12, false, 26632818917290832128915005763485696000000⟩, ⟨14, false, 146334169875224352356675855843328000000⟩,
      ⟨16, true, 1103145355754942733324651803443200000⟩, ⟨18, true, 3605050182205695206943306547200000⟩,
      ⟨20, false, 32037481440990582089617244160000⟩, ⟨22, false, 69345197924222039155015680000⟩]⟩,
  ⟨0, 11, 0,
    [⟨0, true, 1124000727777607680000⟩, ⟨2, true, 26761922089943040000⟩, ⟨4, true, 352130553815040000⟩,
      ⟨6, true, 3452260331520000⟩, ⟨8, true, 28768836096000⟩, ⟨10, true, 221298739200⟩],
    [⟨0, true, 1321888735075827688679669760000⟩, ⟨2, true, 181707380547529365777914265600000⟩,
      ⟨4, true, 14224399281226944346884931584000000⟩, ⟨6, true, 496944073998232988494491706982400000⟩,
      ⟨8, true, 845862253614013597437432692736000000⟩, ⟨10, false, 153946930157750474733612750077952000000⟩]⟩,
  ⟨0, 10, 1,
    [⟨11, true, 20118067200⟩, ⟨13, true, 2615348736000⟩, ⟨15, true, 313841848320000⟩, ⟨17, true, 32011868528640000⟩,
      ⟨19, true, 2432902008176640000⟩, ⟨21, true, 102181884343418880000⟩],
    [⟨11, false, 923681580946502848401676500467712000000⟩, ⟨15, true, 4003748000439664361203848078950400000⟩,
      ⟨17, true, 142635595707461116430625905049600000⟩, ⟨19, true, 2191400102349686930065588224000000⟩,
      ⟨21, true, 18867142289346708522569564160000⟩]⟩,
  ⟨0, 9, 2,
    [⟨2, false, 9731608032706560000⟩, ⟨4, false, 230485453406208000⟩, ⟨6, false, 3012881743872000⟩,
      ⟨8, false, 29291905843200⟩, ⟨10, false, 241416806400⟩],
    [⟨0, true, 1790542870716017032770355200000⟩, ⟨2, true, 47298476621254307805910794240000⟩,
      ⟨4, false, 12064824491566983160616976384000000⟩, ⟨6, false, 1309324280073358547700026022297600000⟩,
      ⟨8, false, 36795008032209591488528322134016000000⟩, ⟨10, true, 76973465078875237366806375038976000000⟩]⟩,
  ⟨0, 8, 3,
    [⟨11, false, 22353408000⟩, ⟨13, false, 2789705318400⟩, ⟨15, false, 292919058432000⟩,
      ⟨17, false, 22763995398144000⟩, ⟨19, false, 973160803270656000⟩],
    [⟨11, true, 461840790473251424200838250233856000000⟩, ⟨13, false, 254604538337818092828667240513536000000⟩,
      ⟨15, false, 11701094508327188097884485582848000000⟩, ⟨17, false, 147092958073319276319082964582400000⟩,
      ⟨19, true, 155489384855517205411292774400000⟩, ⟨21, true, 20822125783144147070138449920000⟩]⟩,
  ⟨0, 7, 4,
    [⟨4, true, 102437979291648000⟩, ⟨6, true, 2343352467456000⟩, ⟨8, true, 29291905843200⟩, ⟨10, true, 268240896000⟩],
    [⟨0, false, 400424234182109002821795840000⟩, ⟨2, false, 144744553095033609052949053440000⟩,
      ⟨4, false, 3034922437735465453768566374400000⟩, ⟨6, true, 1383337227264584737475801382912000000⟩,
      ⟨8, true, 101926401560488638491210639474688000000⟩, ⟨10, true, 1308548906340879035235708375662592000000⟩]⟩,
  ⟨0, 6, 5,
    [⟨11, true, 25546752000⟩, ⟨13, true, 2988969984000⟩, ⟨15, true, 251073478656000⟩, ⟨17, true, 11381997699072000⟩],
    [⟨11, true, 7851293438045274211414250253975552000000⟩, ⟨13, true, 763813615013454278486001721540608000000⟩,
      ⟨15, true, 14464244536799632516180099045785600000⟩, ⟨17, true, 13372087097574479665371178598400000⟩,
      ⟨19, false, 1527311910890743076154979123200000⟩, ⟨21, false, 7850965459218284960871874560000⟩]⟩,
  ⟨0, 5, 6,
    [⟨6, false, 1339058552832000⟩, ⟨8, false, 27897053184000⟩, ⟨10, false, 306561024000⟩],
    [⟨0, false, 589434182355887332817633280000⟩, ⟨2, true, 57270407930701707529169141760000⟩,
      ⟨4, true, 14299264540601823001342220697600000⟩, ⟨6, false, 283716297566367060807138882355200000⟩,
      ⟨8, false, 152678136777329454337456601038848000000⟩, ⟨10, false, 5311169090442391378309639877689344000000⟩]⟩,
  ⟨0, 4, 7,
    [⟨11, false, 30656102400⟩, ⟨13, false, 3188234649600⟩, ⟨15, false, 167382319104000⟩],
    [⟨11, false, 31867014542654348269857839266136064000000⟩, ⟨13, false, 1273022691689090464143336202567680000000⟩,
      ⟨15, false, 7359001606441918297705664426803200000⟩, ⟨17, true, 120348783878170316988340607385600000⟩,
      ⟨19, true, 949000514586012417432276172800000⟩, ⟨21, false, 5120194864707577148394700800000⟩]⟩,
  ⟨0, 3, 8,
    [⟨8, true, 22317642547200⟩, ⟨10, true, 367873228800⟩],
    [⟨0, true, 368736693408788998174801920000⟩, ⟨2, true, 44691831962857723075818946560000⟩,
      ⟨4, false, 9093249580994876568312270028800000⟩, ⟨6, false, 1309324280073358547700026022297600000⟩,
      ⟨8, true, 108693299589400747270710101016576000000⟩, ⟨10, true, 13316409458645416064457502881742848000000⟩]⟩,
  ⟨0, 2, 9,
    [⟨11, true, 40874803200⟩, ⟨13, true, 3188234649600⟩],
    [⟨11, true, 79898456751872496386745017290457088000000⟩, ⟨13, true, 1273022691689090464143336202567680000000⟩,
      ⟨15, false, 6851484254273510139243204811161600000⟩, ⟨17, false, 120348783878170316988340607385600000⟩,
      ⟨19, true, 207622278023448900013129728000000⟩, ⟨21, true, 5120194864707577148394700800000⟩]⟩,
  ⟨0, 1, 10,
    [⟨10, false, 490497638400⟩],
    [⟨0, true, 69345197924222039155015680000⟩, ⟨2, false, 32037481440990582089617244160000⟩,
      ⟨4, false, 3605050182205695206943306547200000⟩, ⟨6, true, 1103145355754942733324651803443200000⟩,
      ⟨8, true, 146334169875224352356675855843328000000⟩, ⟨10, false, 26632818917290832128915005763485696000000⟩]⟩,
  ⟨0, 0, 11,
    [⟨11, false, 81749606400⟩],
    [⟨11, false, 159796913503744992773490034580914176000000⟩, ⟨15, true, 13702968508547020278486409622323200000⟩,
      ⟨19, false, 415244556046897800026259456000000⟩]⟩]

/-- degree 11: the rows of `V` -/
def certInverse11 : List (List CertEntry) := [
  [⟨0, false, 4017361881⟩, ⟨2, true, 7213751622⟩, ⟨4, true, 10754847207720⟩, ⟨6, false, 79789596218640⟩,
    ⟨8, false, 18852600177734400⟩, ⟨10, true, 141377230990195200⟩],
  [⟨1, false, 525876117536⟩, ⟨5, true, 1206177508166400⟩, ⟨9, false, 1157046491497881600⟩],
  [⟨0, true, 7213751622⟩, ⟨2, false, 16637535686772⟩, ⟨4, true, 87077916248400⟩, ⟨6, true, 77011931043542880⟩,
    ⟨8, false, 925891739614195200⟩, ⟨10, false, 65316280717470182400⟩],
  [⟨3, false, 2121681171456000⟩, ⟨7, true, 7802892041836953600⟩],
  [⟨0, true, 10754847207720⟩, ⟨2, true, 87077916248400⟩, ⟨4, false, 133133188057531200⟩,
    ⟨6, true, 1348801647694300800⟩, ⟨8, true, 528596924728916736000⟩, ⟨10, false, 7349780916306436608000⟩],
  [⟨1, true, 1206177508166400⟩, ⟨5, false, 16636772051417548800⟩, ⟨9, true, 42187253811490529280000⟩],
  [⟨0, false, 79789596218640⟩, ⟨2, true, 77011931043542880⟩, ⟨4, true, 1348801647694300800⟩,
    ⟨6, false, 1176676494580687161600⟩, ⟨8, true, 21595706725646946816000⟩, ⟨10, true, 2249032960389769602048000⟩],
  [⟨3, true, 7802892041836953600⟩, ⟨7, false, 149440988385261335347200⟩],
  [⟨0, false, 18852600177734400⟩, ⟨2, false, 925891739614195200⟩, ⟨4, true, 528596924728916736000⟩,
    ⟨6, true, 21595706725646946816000⟩, ⟨8, false, 9787948101320641781760000⟩,
    ⟨10, true, 298338174170553462865920000⟩],
  [⟨1, false, 1157046491497881600⟩, ⟨5, true, 42187253811490529280000⟩, ⟨9, false, 1288928524822879017369600000⟩],
  [⟨0, true, 141377230990195200⟩, ⟨2, false, 65316280717470182400⟩, ⟨4, false, 7349780916306436608000⟩,
    ⟨6, true, 2249032960389769602048000⟩, ⟨8, true, 298338174170553462865920000⟩,
    ⟨10, false, 54297547699040730241597440000⟩],
  [⟨11, false, 1954711717165466288697507840000⟩, ⟨15, true, 167621216932819633471488000⟩,
    ⟨19, false, 5079468566675543040000⟩],
  [⟨12, false, 54297547699040730241597440000⟩, ⟨14, false, 298338174170553462865920000⟩,
    ⟨16, true, 2249032960389769602048000⟩, ⟨18, true, 7349780916306436608000⟩, ⟨20, false, 65316280717470182400⟩,
    ⟨22, false, 141377230990195200⟩],
  [⟨13, false, 399287640841870130380800000⟩, ⟨17, true, 37747781172025537536000⟩, ⟨21, false, 1605965503621248000⟩],
  [⟨12, false, 298338174170553462865920000⟩, ⟨14, false, 9787948101320641781760000⟩,
    ⟨16, false, 21595706725646946816000⟩, ⟨18, true, 528596924728916736000⟩, ⟨20, true, 925891739614195200⟩,
    ⟨22, false, 18852600177734400⟩],
  [⟨11, true, 167621216932819633471488000⟩, ⟨15, false, 74665083289841875353600⟩, ⟨19, true, 6599963658151987200⟩],
  [⟨12, true, 2249032960389769602048000⟩, ⟨14, false, 21595706725646946816000⟩, ⟨16, false, 1176676494580687161600⟩,
    ⟨18, false, 1348801647694300800⟩, ⟨20, true, 77011931043542880⟩, ⟨22, true, 79789596218640⟩],
  [⟨13, true, 37747781172025537536000⟩, ⟨17, false, 11087603013102739200⟩, ⟨21, true, 1111505069616480⟩],
  [⟨12, true, 7349780916306436608000⟩, ⟨14, true, 528596924728916736000⟩, ⟨16, false, 1348801647694300800⟩,
    ⟨18, false, 133133188057531200⟩, ⟨20, false, 87077916248400⟩, ⟨22, true, 10754847207720⟩],
  [⟨11, false, 5079468566675543040000⟩, ⟨15, true, 6599963658151987200⟩, ⟨19, false, 1710120585096000⟩],
  [⟨12, false, 65316280717470182400⟩, ⟨14, true, 925891739614195200⟩, ⟨16, true, 77011931043542880⟩,
    ⟨18, false, 87077916248400⟩, ⟨20, false, 16637535686772⟩, ⟨22, false, 7213751622⟩],
  [⟨13, false, 1605965503621248000⟩, ⟨17, true, 1111505069616480⟩, ⟨21, false, 491753865372⟩],
  [⟨12, false, 141377230990195200⟩, ⟨14, false, 18852600177734400⟩, ⟨16, true, 79789596218640⟩,
    ⟨18, true, 10754847207720⟩, ⟨20, false, 7213751622⟩, ⟨22, false, 4017361881⟩]]

/-- degree 11: the denominator -/
def certDen11 : ℕ := 22728692310073210541308092827022826444475596800000000

/-- degree 12: the rows of `Qᵀ` and `U` -/
def certRows12 : List CertRow := [
  ⟨12, 0, 0,
    [⟨12, false, 442597478400⟩, ⟨14, true, 69045206630400⟩, ⟨16, false, 10356780994560000⟩,
      ⟨18, true, 1408522215260160000⟩, ⟨20, false, 160571532539658240000⟩, ⟨22, true, 13488008733331292160000⟩,
      ⟨24, false, 620448401733239439360000⟩],
    [⟨12, true, 619271134536971377044844410496729743360000000⟩,
      ⟨14, false, 69412808486561626877553988868864212992000000⟩,
      ⟨16, false, 924369916937054344856315374642554470400000⟩,
      ⟨18, true, 104913150081812916440747450496240844800000⟩, ⟨20, false, 2130031810366021962620350180098048000000⟩,
      ⟨22, true, 21098745798291019293282821021368320000⟩, ⟨24, false, 120917489719781192912962049802240000⟩]⟩,
  ⟨11, 1, 0,
    [⟨0, false, 620448401733239439360000⟩, ⟨2, true, 11240007277776076800000⟩, ⟨4, false, 107047688359772160000⟩,
      ⟨6, true, 704261107630080000⟩, ⟨8, false, 3452260331520000⟩, ⟨10, true, 11507534438400⟩],
    [⟨0, false, 214010693419164356918611279872000000⟩, ⟨2, true, 31641169959969061850130458817331200000⟩,
      ⟨4, false, 2728893153926448547940596151903846400000⟩, ⟨6, true, 106260243595479006685070597252186112000000⟩,
      ⟨10, false, 55345760919517576247883579164542894080000000⟩]⟩,
  ⟨11, 0, 1,
    [⟨13, true, 5753767219200⟩, ⟨15, false, 863065082880000⟩, ⟨17, true, 117376851271680000⟩,
      ⟨19, false, 13380961044971520000⟩, ⟨21, true, 1124000727777607680000⟩, ⟨23, false, 51704033477769953280000⟩],
    [⟨13, false, 387420326436623033735185054151800258560000000⟩,
      ⟨15, false, 1844858697317252541596119305484763136000000⟩,
      ⟨17, true, 956342192359311060165635375269675008000000⟩,
      ⟨19, false, 24492609339383458987693577380823040000000⟩, ⟨21, true, 283079223037601381590944662421504000000⟩,
      ⟨23, false, 1880276800161079634107455818956800000⟩]⟩,
  ⟨10, 2, 0,
    [⟨12, false, 40236134400⟩, ⟨14, true, 4184557977600⟩, ⟨16, true, 313841848320000⟩,
      ⟨18, false, 256094948229120000⟩, ⟨20, true, 63255452212592640000⟩, ⟨22, false, 8992005822220861440000⟩,
      ⟨24, true, 620448401733239439360000⟩],
    [⟨12, true, 2848647218870068334406284288284956819456000000⟩,
      ⟨14, true, 115688014144269378129256648114773688320000000⟩,
      ⟨16, false, 9805126296835380136543369832864887603200000⟩,
      ⟨18, true, 127597074423826519995503656008941568000000⟩, ⟨20, true, 708092314933125881517684356378787840000⟩,
      ⟨22, false, 29996218084412212935886905960038400000⟩, ⟨24, true, 316969927775874484372923419197440000⟩]⟩,
  ⟨10, 1, 1,
    [⟨1, false, 51704033477769953280000⟩, ⟨3, true, 919636959090769920000⟩, ⟨5, false, 8515157028618240000⟩,
      ⟨7, true, 53353114214400000⟩, ⟨9, false, 235381386240000⟩, ⟨11, true, 523069747200⟩],
    [⟨1, false, 3255979841898864931939214897971200000⟩, ⟨3, true, 413026516081717979111925431559782400000⟩,
      ⟨5, false, 30085253739145511971118345657253888000000⟩, ⟨7, true, 956342192359311060165635375269675008000000⟩,
      ⟨9, true, 1844858697317252541596119305484763136000000⟩,
      ⟨11, false, 387420326436623033735185054151800258560000000⟩]⟩,
  ⟨10, 0, 2,
    [⟨12, true, 482833612800⟩, ⟨14, false, 73229764608000⟩, ⟨16, true, 10042939146240000⟩,
      ⟨18, false, 1152427267031040000⟩, ⟨20, true, 97316080327065600000⟩, ⟨22, false, 4496002911110430720000⟩],
    [⟨12, false, 3467918353407039711451128698781686562816000000⟩,
      ⟨14, false, 46275205657707751251702659245909475328000000⟩,
      ⟨16, true, 10729496213772434481399685207507442073600000⟩,
      ⟨18, false, 232510224505639436436251106505182412800000⟩, ⟨20, true, 1421939495432896081102665823719260160000⟩,
      ⟨22, true, 8897472286121193642604084938670080000⟩, ⟨24, false, 196052438056093291459961369395200000⟩]⟩,
  ⟨9, 3, 0,
    [⟨0, true, 620448401733239439360000⟩, ⟨2, false, 6744004366665646080000⟩, ⟨4, true, 29194824098119680000⟩,
      ⟨6, false, 12804747411456000⟩, ⟨8, false, 564915326976000⟩, ⟨10, true, 3138418483200⟩],
    [⟨0, true, 427018211712926380914166569369600000⟩, ⟨2, false, 32063996610499105615187825550950400000⟩,
      ⟨4, false, 170555822120403034246287259493990400000⟩, ⟨6, true, 206114727825273108711821335804772352000000⟩,
      ⟨8, false, 9916115498080232411079141266980601856000000⟩,
      ⟨10, true, 27672880459758788123941789582271447040000000⟩]⟩,
  ⟨9, 2, 1,
    [⟨13, true, 523069747200⟩, ⟨15, false, 15692092416000⟩, ⟨17, false, 14938871980032000⟩,
      ⟨19, true, 4622513815535616000⟩, ⟨21, false, 715273190403932160000⟩, ⟨23, true, 51704033477769953280000⟩],
    [⟨13, true, 193710163218311516867592527075900129280000000⟩,
      ⟨15, false, 78406494635983233017835070483102433280000000⟩,
      ⟨17, true, 1563382094601568789845240808508227584000000⟩, ⟨19, true, 3718513563671577781532425715712000000000⟩,
      ⟨21, false, 356764815623118805439596730096025600000⟩, ⟨23, true, 4427175135979049057596350450892800000⟩]⟩,
  ⟨9, 1, 2,
    [⟨2, false, 4496002911110430720000⟩, ⟨4, true, 77852864261652480000⟩, ⟨6, false, 691456360218624000⟩,
      ⟨8, true, 4017175658496000⟩, ⟨10, false, 14645952921600⟩],
    [⟨0, false, 213007518293762023995555289497600000⟩, ⟨2, true, 422826650530043765057366733619200000⟩,
      ⟨4, true, 2899448976046851582186883411397836800000⟩, ⟨6, false, 312374971420752115396891933056958464000000⟩,
      ⟨8, true, 9916115498080232411079141266980601856000000⟩,
      ⟨10, true, 27672880459758788123941789582271447040000000⟩]⟩,
  ⟨9, 0, 3,
    [⟨13, false, 6276836966400⟩, ⟨15, true, 878757175296000⟩, ⟨17, false, 102437979291648000⟩,
      ⟨19, true, 8758447229435904000⟩, ⟨21, false, 408727537373675520000⟩],
    [⟨13, true, 193710163218311516867592527075900129280000000⟩,
      ⟨15, true, 80251353333300485559431189788587196416000000⟩,
      ⟨17, false, 2519724286960879850010876183777902592000000⟩,
      ⟨19, true, 20774095775711881206161151665111040000000⟩, ⟨21, true, 73685592585517423848652067674521600000⟩,
      ⟨23, false, 2546898335817969423488894631936000000⟩]⟩,
  ⟨8, 4, 0,
    [⟨12, false, 13412044800⟩, ⟨14, true, 697426329600⟩, ⟨16, true, 355687428096000⟩,
      ⟨18, false, 76828484468736000⟩, ⟨20, false, 4865804016353280000⟩, ⟨22, true, 4496002911110430720000⟩,
      ⟨24, false, 620448401733239439360000⟩],
    [⟨12, false, 5449585983925348117994630812371221741568000000⟩,
      ⟨14, true, 509027262234785263768729251705004228608000000⟩,
      ⟨16, false, 2971594088803782065673062922163794739200000⟩,
      ⟨18, false, 164458451479598625771982489967080243200000⟩, ⟨20, true, 1552253061484367419033325827868590080000⟩,
      ⟨22, true, 21000044512341711981797701079531520000⟩, ⟨24, false, 485310008147320655367449975193600000⟩]⟩,
  ⟨8, 3, 1,
    [⟨1, true, 51704033477769953280000⟩, ⟨3, false, 510909421717094400000⟩, ⟨5, true, 1703031405723648000⟩,
      ⟨7, true, 3556874280960000⟩, ⟨9, false, 57537672192000⟩, ⟨11, true, 174356582400⟩],
    [⟨1, true, 5821261945131184084343647213977600000⟩, ⟨3, false, 348643109807861518094535432024883200000⟩,
      ⟨5, false, 7129630006079638466458170905591808000000⟩, ⟨7, true, 2146683006253347166967543235977674752000000⟩,
      ⟨9, false, 80251353333300485559431189788587196416000000⟩,
      ⟨11, true, 193710163218311516867592527075900129280000000⟩]⟩,
  ⟨8, 2, 2,
    [⟨12, true, 53648179200⟩, ⟨14, false, 4881984307200⟩, ⟨16, false, 669529276416000⟩,
      ⟨18, true, 332923432697856000⟩, ⟨20, false, 58389648196239360000⟩, ⟨22, true, 4496002911110430720000⟩],
    [⟨12, true, 2600938765055279783588346524086264922112000000⟩,
      ⟨14, false, 624715276379054641897985899819777916928000000⟩,
      ⟨16, true, 12776720385639162202216432755028682342400000⟩,
      ⟨18, true, 36861377055772105776478833958138675200000⟩, ⟨20, false, 2260345376417493300551010184247377920000⟩,
      ⟨22, true, 8996173572070500954089204880506880000⟩, ⟨24, true, 168340080371446170994526555996160000⟩]⟩,
  ⟨8, 1, 3,
    [⟨3, false, 408727537373675520000⟩, ⟨5, true, 6812125622894592000⟩, ⟨7, false, 56909988495360000⟩,
      ⟨9, true, 292919058432000⟩, ⟨11, false, 697426329600⟩],
    [⟨1, false, 2565282103232319152404432316006400000⟩, ⟨3, false, 64383406273856461017389999534899200000⟩,
      ⟨5, true, 37214883745225150437576516562845696000000⟩, ⟨7, false, 3103025198612658227133178611247349760000000⟩,
      ⟨9, true, 78406494635983233017835070483102433280000000⟩,
      ⟨11, true, 193710163218311516867592527075900129280000000⟩]⟩,
  ⟨8, 0, 4,
    [⟨12, false, 536481792000⟩, ⟨14, true, 78111748915200⟩, ⟨16, false, 9373409869824000⟩,
      ⟨18, true, 819503834333184000⟩, ⟨20, false, 38926432130826240000⟩],
    [⟨12, true, 866979588351759927862782174695421640704000000⟩,
      ⟨14, true, 670990482036762393149688559065687392256000000⟩,
      ⟨16, false, 23506216599411596683616117962536124416000000⟩,
      ⟨18, true, 195648847449867330659772272547043737600000⟩, ⟨20, true, 838405880984597219448344360528117760000⟩,
      ⟨22, false, 17893645858191694596693289819176960000⟩, ⟨24, true, 27712357684647120465434813399040000⟩]⟩,
  ⟨7, 5, 0,
    [⟨0, false, 620448401733239439360000⟩, ⟨2, true, 2248001455555215360000⟩, ⟨4, true, 9731608032706560000⟩,
      ⟨6, false, 64023737057280000⟩, ⟨8, false, 104613949440000⟩, ⟨10, true, 1743565824000⟩],
    [⟨0, false, 557430978015229660911445318041600000⟩, ⟨2, true, 13094748197379680256928905795993600000⟩,
      ⟨4, true, 2558337331806045513694308892409856000000⟩, ⟨6, false, 125477521692533720660030173350985728000000⟩,
      ⟨8, false, 9916115498080232411079141266980601856000000⟩,
      ⟨10, true, 470438967815899398107010422898614599680000000⟩]⟩,
  ⟨7, 4, 1,
    [⟨13, true, 174356582400⟩, ⟨15, true, 15692092416000⟩, ⟨17, false, 7825123418112000⟩,
      ⟨19, true, 243290200817664000⟩, ⟨21, true, 306545653030256640000⟩, ⟨23, false, 51704033477769953280000⟩],
    [⟨13, true, 3293072774711295786749072960290302197760000000⟩,
      ⟨15, false, 63647625057445212685066116039224328192000000⟩,
      ⟨17, false, 1420948151058692674501422773893595136000000⟩,
      ⟨19, true, 22281333273520094066942294888546304000000⟩, ⟨21, true, 204955023785606137914177699289497600000⟩,
      ⟨23, false, 6404503297109284621004106733977600000⟩]⟩,
  ⟨7, 3, 2,
    [⟨2, true, 4496002911110430720000⟩, ⟨4, false, 38926432130826240000⟩, ⟨6, true, 76828484468736000⟩,
      ⟨8, true, 669529276416000⟩, ⟨10, false, 4881984307200⟩],
    [⟨0, true, 130412766302303279997278748672000000⟩, ⟨2, true, 18969248413119425358258919754956800000⟩,
      ⟨4, false, 2387781509685642479448021632915865600000⟩, ⟨6, false, 80637206132739388051791162453786624000000⟩,
      ⟨8, true, 19832230996160464822158282533961203712000000⟩,
      ⟨10, false, 498111848275658186230952212480886046720000000⟩]⟩,
  ⟨7, 2, 3,
    [⟨13, false, 697426329600⟩, ⟨17, true, 22763995398144000⟩, ⟨19, false, 4865804016353280000⟩,
      ⟨21, true, 408727537373675520000⟩],
    [⟨13, false, 3486782937929607303616665487366202327040000000⟩,
      ⟨15, true, 142054119693428445702901186522326761472000000⟩,
      ⟨17, false, 142433943542876115343818034614632448000000⟩,
      ⟨19, false, 25999846837191671848474720604258304000000⟩, ⟨21, true, 151809791837512667525419030806528000000⟩,
      ⟨23, true, 1977328161130235563407756283084800000⟩]⟩,
  ⟨7, 1, 4,
    [⟨4, false, 38926432130826240000⟩, ⟨6, true, 614627875749888000⟩, ⟨8, false, 4686704934912000⟩,
      ⟨10, true, 19527937228800⟩],
    [⟨0, true, 82594751991458743998276540825600000⟩, ⟨2, false, 19392075063649469123316286488576000000⟩,
      ⟨4, false, 511667466361209102738861778481971200000⟩, ⟨6, true, 393012177553491503448683095510745088000000⟩,
      ⟨8, false, 29748346494240697233237423800941805568000000⟩,
      ⟨10, true, 470438967815899398107010422898614599680000000⟩]⟩,
  ⟨7, 0, 5,
    [⟨13, true, 6974263296000⟩, ⟨15, false, 878757175296000⟩, ⟨17, true, 79673983893504000⟩,
      ⟨19, false, 3892643213082624000⟩],
    [⟨13, true, 3293072774711295786749072960290302197760000000⟩,
      ⟨15, false, 222305473026728931262332376310913957888000000⟩,
      ⟨17, true, 2662158230503755965354694218392535040000000⟩, ⟨19, true, 5225751061479790642313568939147264000000⟩,
      ⟨21, false, 225495384423030091374071098481049600000⟩, ⟨23, true, 569570174687733860081138348851200000⟩]⟩,
  ⟨6, 6, 0,
    [⟨12, false, 9580032000⟩, ⟨16, true, 313841848320000⟩, ⟨20, false, 14597412049059840000⟩,
      ⟨24, true, 620448401733239439360000⟩],
    [⟨12, false, 15357924136516890150712141380318897635328000000⟩,
      ⟨16, true, 11818324582189087452027983072117076787200000⟩,
      ⟨20, false, 2571742127629560850209417417216491520000⟩, ⟨24, true, 550524915008688132181775446179840000⟩]⟩,
  ⟨6, 5, 1,
    [⟨1, false, 51704033477769953280000⟩, ⟨3, true, 102181884343418880000⟩, ⟨5, true, 1216451004088320000⟩,
      ⟨7, false, 3556874280960000⟩, ⟨9, false, 26153487360000⟩, ⟨11, true, 124540416000⟩],
    [⟨1, false, 6973840175256227240870580899020800000⟩, ⟨3, true, 83129436556746827738258228222361600000⟩,
      ⟨5, true, 28885413362600816206943882959650816000000⟩, ⟨7, false, 837647239406914297379120346424147968000000⟩,
      ⟨9, false, 95010222911838505892200144232465301504000000⟩,
      ⟨11, true, 3293072774711295786749072960290302197760000000⟩]⟩,
  ⟨6, 4, 2,
    [⟨12, true, 22992076800⟩, ⟨14, false, 697426329600⟩, ⟨16, false, 669529276416000⟩,
      ⟨18, true, 76828484468736000⟩, ⟨20, true, 19463216065413120000⟩, ⟨22, false, 4496002911110430720000⟩],
    [⟨12, true, 20807510120442238268706772192690119376896000000⟩,
      ⟨14, false, 509027262234785263768729251705004228608000000⟩,
      ⟨16, false, 8846730493385305386354920149953282048000000⟩,
      ⟨18, true, 164458451479598625771982489967080243200000⟩, ⟨20, true, 1019489066145193431176091589347901440000⟩,
      ⟨22, false, 21000044512341711981797701079531520000⟩, ⟨24, false, 65214906861367476814325470986240000⟩]⟩,
  ⟨6, 3, 3,
    [⟨3, true, 408727537373675520000⟩, ⟨5, false, 2919482409811968000⟩, ⟨9, true, 83691159552000⟩,
      ⟨11, false, 298896998400⟩],
    [⟨1, true, 1152578230125043156526933685043200000⟩, ⟨3, true, 265513673251114690356277203802521600000⟩,
      ⟨5, false, 21755783356521177740485712054059008000000⟩,
      ⟨7, false, 1309035766846432869588422889553526784000000⟩,
      ⟨9, true, 175261576245138991451631334021052497920000000⟩,
      ⟨11, false, 3486782937929607303616665487366202327040000000⟩]⟩,
  ⟨6, 2, 4,
    [⟨12, false, 76640256000⟩, ⟨14, true, 5579410636800⟩, ⟨16, true, 1339058552832000⟩,
      ⟨18, false, 409751917166592000⟩, ⟨20, true, 38926432130826240000⟩],
    [⟨12, false, 23408448885497518052295118716776384299008000000⟩,
      ⟨14, true, 1133742538613839905666715151524782145536000000⟩,
      ⟨16, false, 3929989892253856815861512605075400294400000⟩,
      ⟨18, false, 201319828535370731548461323925218918400000⟩, ⟨20, true, 1240856310272299869374918594899476480000⟩,
      ⟨22, true, 12003870940271211027708496199024640000⟩, ⟨24, false, 103125173510078694180201085009920000⟩]⟩,
  ⟨6, 1, 5,
    [⟨5, false, 3892643213082624000⟩, ⟨7, true, 56909988495360000⟩, ⟨9, false, 376610217984000⟩,
      ⟨11, true, 996323328000⟩],
    [⟨1, true, 1412703873107275995877498630963200000⟩, ⟨3, false, 201130266977258229338887204267622400000⟩,
      ⟨5, false, 15459100388703972697090804508786688000000⟩, ⟨7, true, 4412060965459091096721601500800876544000000⟩,
      ⟨9, false, 253668070881122224469466404504154931200000000⟩,
      ⟨11, true, 3293072774711295786749072960290302197760000000⟩]⟩,
  ⟨6, 0, 6,
    [⟨12, true, 613122048000⟩, ⟨14, false, 83691159552000⟩, ⟨16, true, 8034351316992000⟩,
      ⟨18, false, 409751917166592000⟩],
    [⟨12, true, 22541469297145758124432336542080962658304000000⟩,
      ⟨14, false, 1804733020650602298816403710590469537792000000⟩,
      ⟨16, true, 27436206491665453499477630567611524710400000⟩,
      ⟨18, true, 5670981085503400888689051378175180800000⟩, ⟨20, false, 2079262191256897088823262955427594240000⟩,
      ⟨22, true, 5889774917920483568984793620152320000⟩, ⟨24, true, 75412815825431573714766271610880000⟩]⟩,
  ⟨5, 7, 0,
    [⟨0, true, 620448401733239439360000⟩, ⟨2, true, 2248001455555215360000⟩, ⟨4, false, 9731608032706560000⟩,
      ⟨6, false, 64023737057280000⟩, ⟨8, true, 104613949440000⟩, ⟨10, true, 1743565824000⟩],
    [⟨0, true, 557430978015229660911445318041600000⟩, ⟨2, true, 13094748197379680256928905795993600000⟩,
      ⟨4, false, 2558337331806045513694308892409856000000⟩, ⟨6, false, 125477521692533720660030173350985728000000⟩,
      ⟨8, true, 9916115498080232411079141266980601856000000⟩,
      ⟨10, true, 470438967815899398107010422898614599680000000⟩]⟩,
  ⟨5, 6, 1,
    [⟨13, true, 124540416000⟩, ⟨15, true, 26153487360000⟩, ⟨17, false, 3556874280960000⟩,
      ⟨19, false, 1216451004088320000⟩, ⟨21, true, 102181884343418880000⟩, ⟨23, true, 51704033477769953280000⟩],
    [⟨13, true, 3293072774711295786749072960290302197760000000⟩,
      ⟨15, true, 95010222911838505892200144232465301504000000⟩,
      ⟨17, false, 837647239406914297379120346424147968000000⟩,
      ⟨19, false, 28885413362600816206943882959650816000000⟩, ⟨21, true, 83129436556746827738258228222361600000⟩,
      ⟨23, true, 6973840175256227240870580899020800000⟩]⟩,
  ⟨5, 5, 2,
    [⟨2, false, 4496002911110430720000⟩, ⟨6, true, 128047474114560000⟩, ⟨10, false, 3487131648000⟩],
    [⟨2, false, 26189496394759360513857811591987200000⟩, ⟨6, true, 250955043385067441320060346701971456000000⟩,
      ⟨10, false, 940877935631798796214020845797229199360000000⟩]⟩,
  ⟨5, 4, 3,
    [⟨13, false, 298896998400⟩, ⟨15, false, 41845579776000⟩, ⟨17, true, 11381997699072000⟩,
      ⟨19, true, 973160803270656000⟩, ⟨21, false, 408727537373675520000⟩],
    [⟨13, false, 6586145549422591573498145920580604395520000000⟩,
      ⟨15, false, 31362597854393293207134028193240973312000000⟩,
      ⟨17, true, 2258595390465606971880543120317743104000000⟩, ⟨19, true, 6604080089080722140001588071104512000000⟩,
      ⟨21, false, 288084460342352965652435927511859200000⟩, ⟨23, false, 569336878146942619866474165043200000⟩]⟩,
  ⟨5, 3, 4,
    [⟨4, true, 38926432130826240000⟩, ⟨6, false, 204875958583296000⟩, ⟨8, false, 669529276416000⟩,
      ⟨10, true, 8369115955200⟩],
    [⟨0, false, 130412766302303279997278748672000000⟩, ⟨2, true, 7220247981639935155598891837030400000⟩,
      ⟨4, true, 2387781509685642479448021632915865600000⟩, ⟨6, false, 170317837252328053268269184248184832000000⟩,
      ⟨8, false, 19832230996160464822158282533961203712000000⟩,
      ⟨10, true, 1438989783907456982444973058278115246080000000⟩]⟩,
  ⟨5, 2, 5,
    [⟨13, true, 996323328000⟩, ⟨15, true, 41845579776000⟩, ⟨17, false, 34145993097216000⟩,
      ⟨19, true, 3892643213082624000⟩],
    [⟨13, true, 10072928487352198877114811407946806722560000000⟩,
      ⟨15, false, 110691521839035152495767158329085788160000000⟩,
      ⟨17, false, 2116161446922730856536725085703110656000000⟩,
      ⟨19, true, 19395766748110949708473132533153792000000⟩, ⟨21, true, 136274668504840298127016896705331200000⟩,
      ⟨23, false, 1407991282983292943541282118041600000⟩]⟩,
  ⟨5, 1, 6,
    [⟨6, false, 409751917166592000⟩, ⟨8, true, 5356234211328000⟩, ⟨10, false, 27897053184000⟩],
    [⟨0, true, 47818014310844535999002207846400000⟩, ⟨2, true, 12171827082009533967717394651545600000⟩,
      ⟨4, false, 1876114043324433376709159854433894400000⟩, ⟨6, false, 222694340301163450180413911262560256000000⟩,
      ⟨8, true, 49580577490401162055395706334903009280000000⟩,
      ⟨10, false, 1909428751723356380551983481176729845760000000⟩]⟩,
  ⟨5, 0, 7,
    [⟨13, false, 7970586624000⟩, ⟨15, true, 836911595520000⟩, ⟨17, false, 45527990796288000⟩],
    [⟨13, false, 13366001262063494663863884368237108920320000000⟩,
      ⟨15, true, 332996994865764083758099534639999746048000000⟩,
      ⟨17, false, 545996783581025108817969132689424384000000⟩,
      ⟨19, false, 24621517809590740350786701472301056000000⟩, ⟨21, true, 89220715918189793247054201775718400000⟩,
      ⟨23, true, 838421108295559083460143769190400000⟩]⟩,
  ⟨4, 8, 0,
    [⟨12, false, 13412044800⟩, ⟨14, false, 697426329600⟩, ⟨16, true, 355687428096000⟩,
      ⟨18, true, 76828484468736000⟩, ⟨20, false, 4865804016353280000⟩, ⟨22, false, 4496002911110430720000⟩,
      ⟨24, false, 620448401733239439360000⟩],
    [⟨12, false, 5449585983925348117994630812371221741568000000⟩,
      ⟨14, false, 509027262234785263768729251705004228608000000⟩,
      ⟨16, false, 2971594088803782065673062922163794739200000⟩,
      ⟨18, true, 164458451479598625771982489967080243200000⟩, ⟨20, true, 1552253061484367419033325827868590080000⟩,
      ⟨22, false, 21000044512341711981797701079531520000⟩, ⟨24, false, 485310008147320655367449975193600000⟩]⟩,
  ⟨4, 7, 1,
    [⟨1, true, 51704033477769953280000⟩, ⟨3, true, 306545653030256640000⟩, ⟨5, false, 243290200817664000⟩,
      ⟨7, false, 7825123418112000⟩, ⟨9, false, 15692092416000⟩, ⟨11, true, 174356582400⟩],
    [⟨1, true, 6404503297109284621004106733977600000⟩, ⟨3, true, 204955023785606137914177699289497600000⟩,
      ⟨5, false, 22281333273520094066942294888546304000000⟩,
      ⟨7, false, 1420948151058692674501422773893595136000000⟩,
      ⟨9, true, 63647625057445212685066116039224328192000000⟩,
      ⟨11, true, 3293072774711295786749072960290302197760000000⟩]⟩,
  ⟨4, 6, 2,
    [⟨12, true, 22992076800⟩, ⟨14, true, 697426329600⟩, ⟨16, false, 669529276416000⟩,
      ⟨18, false, 76828484468736000⟩, ⟨20, true, 19463216065413120000⟩, ⟨22, true, 4496002911110430720000⟩],
    [⟨12, true, 20807510120442238268706772192690119376896000000⟩,
      ⟨14, true, 509027262234785263768729251705004228608000000⟩,
      ⟨16, false, 8846730493385305386354920149953282048000000⟩,
      ⟨18, false, 164458451479598625771982489967080243200000⟩, ⟨20, true, 1019489066145193431176091589347901440000⟩,
      ⟨22, true, 21000044512341711981797701079531520000⟩, ⟨24, false, 65214906861367476814325470986240000⟩]⟩,
  ⟨4, 5, 3,
    [⟨3, false, 408727537373675520000⟩, ⟨5, false, 973160803270656000⟩, ⟨7, true, 11381997699072000⟩,
      ⟨9, true, 41845579776000⟩, ⟨11, false, 298896998400⟩],
    [⟨1, true, 569336878146942619866474165043200000⟩, ⟨3, false, 288084460342352965652435927511859200000⟩,
      ⟨5, false, 6604080089080722140001588071104512000000⟩, ⟨7, true, 2258595390465606971880543120317743104000000⟩,
      ⟨9, true, 31362597854393293207134028193240973312000000⟩,
      ⟨11, false, 6586145549422591573498145920580604395520000000⟩]⟩,
  ⟨4, 4, 4,
    [⟨12, false, 45984153600⟩, ⟨16, true, 1339058552832000⟩, ⟨20, false, 38926432130826240000⟩],
    [⟨12, false, 41615020240884476537413544385380238753792000000⟩,
      ⟨16, true, 17693460986770610772709840299906564096000000⟩,
      ⟨20, false, 2038978132290386862352183178695802880000⟩, ⟨24, true, 130429813722734953628650941972480000⟩]⟩,
  ⟨4, 3, 5,
    [⟨5, true, 3892643213082624000⟩, ⟨7, false, 11381997699072000⟩, ⟨9, false, 125536739328000⟩,
      ⟨11, true, 597793996800⟩],
    [⟨1, false, 1721915108271985776393407850086400000⟩, ⟨3, true, 22570787091238275296158723709337600000⟩,
      ⟨5, true, 28359863445601899880487300125163520000000⟩, ⟨7, false, 949559623619174102292120230764216320000000⟩,
      ⟨9, false, 206624174099532284658765362214293471232000000⟩,
      ⟨11, true, 10072928487352198877114811407946806722560000000⟩]⟩,
  ⟨4, 2, 6,
    [⟨12, true, 122624409600⟩, ⟨14, false, 5579410636800⟩, ⟨16, false, 2678117105664000⟩,
      ⟨18, true, 409751917166592000⟩],
    [⟨12, true, 65023469126381994589708663102156623052800000000⟩,
      ⟨14, false, 1133742538613839905666715151524782145536000000⟩,
      ⟨16, false, 13763471094516753956848327694831163801600000⟩,
      ⟨18, true, 201319828535370731548461323925218918400000⟩, ⟨20, true, 798121822018086992977264583796326400000⟩,
      ⟨22, false, 12003870940271211027708496199024640000⟩, ⟨24, false, 27304640212656259448449856962560000⟩]⟩,
  ⟨4, 1, 7,
    [⟨7, false, 45527990796288000⟩, ⟨9, true, 502146957312000⟩, ⟨11, false, 1594117324800⟩],
    [⟨1, true, 309211235164709780515909219123200000⟩, ⟨3, true, 178559479886019954042728480558284800000⟩,
      ⟨5, false, 12900763056897927183396495616376832000000⟩,
      ⟨7, false, 3462501341839916994429481270036660224000000⟩,
      ⟨9, true, 460292244980654509128231766718448402432000000⟩,
      ⟨11, false, 13366001262063494663863884368237108920320000000⟩]⟩,
  ⟨4, 0, 8,
    [⟨12, false, 735746457600⟩, ⟨14, true, 89270570188800⟩, ⟨16, false, 5356234211328000⟩],
    [⟨12, false, 87564938423527752714140999644237585711104000000⟩,
      ⟨14, true, 2938475559264442204483118862115251683328000000⟩,
      ⟨16, false, 13672735397148699542629302872780360908800000⟩,
      ⟨18, false, 206990809620874132437150375303394099200000⟩, ⟨20, true, 1281140369238810095845998371631267840000⟩,
      ⟨22, true, 6114096022350727458723702578872320000⟩, ⟨24, false, 48108175612775314266316414648320000⟩]⟩,
  ⟨3, 9, 0,
    [⟨0, false, 620448401733239439360000⟩, ⟨2, false, 6744004366665646080000⟩, ⟨4, false, 29194824098119680000⟩,
      ⟨6, false, 12804747411456000⟩, ⟨8, true, 564915326976000⟩, ⟨10, true, 3138418483200⟩],
    [⟨0, false, 427018211712926380914166569369600000⟩, ⟨2, false, 32063996610499105615187825550950400000⟩,
      ⟨4, true, 170555822120403034246287259493990400000⟩, ⟨6, true, 206114727825273108711821335804772352000000⟩,
      ⟨8, true, 9916115498080232411079141266980601856000000⟩,
      ⟨10, true, 27672880459758788123941789582271447040000000⟩]⟩,
  ⟨3, 8, 1,
    [⟨13, true, 174356582400⟩, ⟨15, true, 57537672192000⟩, ⟨17, true, 3556874280960000⟩,
      ⟨19, false, 1703031405723648000⟩, ⟨21, false, 510909421717094400000⟩, ⟨23, false, 51704033477769953280000⟩],
    [⟨13, true, 193710163218311516867592527075900129280000000⟩,
      ⟨15, true, 80251353333300485559431189788587196416000000⟩,
      ⟨17, true, 2146683006253347166967543235977674752000000⟩, ⟨19, true, 7129630006079638466458170905591808000000⟩,
      ⟨21, false, 348643109807861518094535432024883200000⟩, ⟨23, false, 5821261945131184084343647213977600000⟩]⟩,
  ⟨3, 7, 2,
    [⟨2, true, 4496002911110430720000⟩, ⟨4, true, 38926432130826240000⟩, ⟨6, true, 76828484468736000⟩,
      ⟨8, false, 669529276416000⟩, ⟨10, false, 4881984307200⟩],
    [⟨0, false, 130412766302303279997278748672000000⟩, ⟨2, true, 18969248413119425358258919754956800000⟩,
      ⟨4, true, 2387781509685642479448021632915865600000⟩, ⟨6, false, 80637206132739388051791162453786624000000⟩,
      ⟨8, false, 19832230996160464822158282533961203712000000⟩,
      ⟨10, false, 498111848275658186230952212480886046720000000⟩]⟩,
  ⟨3, 6, 3,
    [⟨13, false, 298896998400⟩, ⟨15, false, 83691159552000⟩, ⟨19, true, 2919482409811968000⟩,
      ⟨21, true, 408727537373675520000⟩],
    [⟨13, false, 3486782937929607303616665487366202327040000000⟩,
      ⟨15, false, 175261576245138991451631334021052497920000000⟩,
      ⟨17, false, 1309035766846432869588422889553526784000000⟩,
      ⟨19, true, 21755783356521177740485712054059008000000⟩, ⟨21, true, 265513673251114690356277203802521600000⟩,
      ⟨23, false, 1152578230125043156526933685043200000⟩]⟩,
  ⟨3, 5, 4,
    [⟨4, false, 38926432130826240000⟩, ⟨6, false, 204875958583296000⟩, ⟨8, true, 669529276416000⟩,
      ⟨10, true, 8369115955200⟩],
    [⟨0, true, 130412766302303279997278748672000000⟩, ⟨2, true, 7220247981639935155598891837030400000⟩,
      ⟨4, false, 2387781509685642479448021632915865600000⟩, ⟨6, false, 170317837252328053268269184248184832000000⟩,
      ⟨8, true, 19832230996160464822158282533961203712000000⟩,
      ⟨10, true, 1438989783907456982444973058278115246080000000⟩]⟩,
  ⟨3, 4, 5,
    [⟨13, true, 597793996800⟩, ⟨15, true, 125536739328000⟩, ⟨17, false, 11381997699072000⟩,
      ⟨19, false, 3892643213082624000⟩],
    [⟨13, true, 10072928487352198877114811407946806722560000000⟩,
      ⟨15, true, 206624174099532284658765362214293471232000000⟩,
      ⟨17, false, 949559623619174102292120230764216320000000⟩,
      ⟨19, false, 28359863445601899880487300125163520000000⟩, ⟨21, true, 22570787091238275296158723709337600000⟩,
      ⟨23, true, 1721915108271985776393407850086400000⟩]⟩,
  ⟨3, 3, 6,
    [⟨6, true, 409751917166592000⟩, ⟨10, false, 16738231910400⟩],
    [⟨2, false, 14440495963279870311197783674060800000⟩, ⟨6, true, 340635674504656106536538368496369664000000⟩,
      ⟨10, false, 2877979567814913964889946116556230492160000000⟩]⟩,
  ⟨3, 2, 7,
    [⟨13, false, 1594117324800⟩, ⟨15, false, 167382319104000⟩, ⟨17, true, 45527990796288000⟩],
    [⟨13, false, 20145856974704397754229622815893613445120000000⟩,
      ⟨15, false, 95932652260497132162998203885207683072000000⟩,
      ⟨17, true, 3065721070541904958828845316467326976000000⟩, ⟨19, true, 8964096697490950172014167592009728000000⟩,
      ⟨21, false, 158845455596078573423175620414668800000⟩, ⟨23, false, 313923825288692832852125732044800000⟩]⟩,
  ⟨3, 1, 8,
    [⟨8, false, 5356234211328000⟩, ⟨10, true, 44635285094400⟩],
    [⟨0, false, 47818014310844535999002207846400000⟩, ⟨2, true, 2268668881270336343480389022515200000⟩,
      ⟨4, true, 1876114043324433376709159854433894400000⟩, ⟨6, false, 117941334203492656356124457233809408000000⟩,
      ⟨8, false, 49580577490401162055395706334903009280000000⟩,
      ⟨10, true, 4787408319538270345441929597732960337920000000⟩]⟩,
  ⟨3, 0, 9,
    [⟨13, true, 9564703948800⟩, ⟨15, false, 669529276416000⟩],
    [⟨13, true, 33511858236767892418093507184130722365440000000⟩,
      ⟨15, false, 237064342605266951595101330754792062976000000⟩,
      ⟨17, false, 2519724286960879850010876183777902592000000⟩,
      ⟨19, true, 15657421112099790178772533880291328000000⟩, ⟨21, true, 69624739677888780176121418638950400000⟩,
      ⟨23, false, 524497283006866250608018037145600000⟩]⟩,
  ⟨2, 10, 0,
    [⟨12, false, 40236134400⟩, ⟨14, false, 4184557977600⟩, ⟨16, true, 313841848320000⟩,
      ⟨18, true, 256094948229120000⟩, ⟨20, true, 63255452212592640000⟩, ⟨22, true, 8992005822220861440000⟩,
      ⟨24, true, 620448401733239439360000⟩],
    [⟨12, true, 2848647218870068334406284288284956819456000000⟩,
      ⟨14, false, 115688014144269378129256648114773688320000000⟩,
      ⟨16, false, 9805126296835380136543369832864887603200000⟩,
      ⟨18, false, 127597074423826519995503656008941568000000⟩, ⟨20, true, 708092314933125881517684356378787840000⟩,
      ⟨22, true, 29996218084412212935886905960038400000⟩, ⟨24, true, 316969927775874484372923419197440000⟩]⟩,
  ⟨2, 9, 1,
    [⟨1, false, 51704033477769953280000⟩, ⟨3, false, 715273190403932160000⟩, ⟨5, false, 4622513815535616000⟩,
      ⟨7, false, 14938871980032000⟩, ⟨9, true, 15692092416000⟩, ⟨11, true, 523069747200⟩],
    [⟨1, false, 4427175135979049057596350450892800000⟩, ⟨3, false, 356764815623118805439596730096025600000⟩,
      ⟨5, false, 3718513563671577781532425715712000000000⟩, ⟨7, true, 1563382094601568789845240808508227584000000⟩,
      ⟨9, true, 78406494635983233017835070483102433280000000⟩,
      ⟨11, true, 193710163218311516867592527075900129280000000⟩]⟩,
  ⟨2, 8, 2,
    [⟨12, true, 53648179200⟩, ⟨14, true, 4881984307200⟩, ⟨16, false, 669529276416000⟩,
      ⟨18, false, 332923432697856000⟩, ⟨20, false, 58389648196239360000⟩, ⟨22, false, 4496002911110430720000⟩],
    [⟨12, true, 2600938765055279783588346524086264922112000000⟩,
      ⟨14, true, 624715276379054641897985899819777916928000000⟩,
      ⟨16, true, 12776720385639162202216432755028682342400000⟩,
      ⟨18, false, 36861377055772105776478833958138675200000⟩, ⟨20, false, 2260345376417493300551010184247377920000⟩,
      ⟨22, false, 8996173572070500954089204880506880000⟩, ⟨24, true, 168340080371446170994526555996160000⟩]⟩,
  ⟨2, 7, 3,
    [⟨3, true, 408727537373675520000⟩, ⟨5, true, 4865804016353280000⟩, ⟨7, true, 22763995398144000⟩,
      ⟨11, false, 697426329600⟩],
    [⟨1, false, 1977328161130235563407756283084800000⟩, ⟨3, true, 151809791837512667525419030806528000000⟩,
      ⟨5, true, 25999846837191671848474720604258304000000⟩, ⟨7, false, 142433943542876115343818034614632448000000⟩,
      ⟨9, false, 142054119693428445702901186522326761472000000⟩,
      ⟨11, false, 3486782937929607303616665487366202327040000000⟩]⟩,
  ⟨2, 6, 4,
    [⟨12, false, 76640256000⟩, ⟨14, false, 5579410636800⟩, ⟨16, true, 1339058552832000⟩,
      ⟨18, true, 409751917166592000⟩, ⟨20, true, 38926432130826240000⟩],
    [⟨12, false, 23408448885497518052295118716776384299008000000⟩,
      ⟨14, false, 1133742538613839905666715151524782145536000000⟩,
      ⟨16, false, 3929989892253856815861512605075400294400000⟩,
      ⟨18, true, 201319828535370731548461323925218918400000⟩, ⟨20, true, 1240856310272299869374918594899476480000⟩,
      ⟨22, false, 12003870940271211027708496199024640000⟩, ⟨24, false, 103125173510078694180201085009920000⟩]⟩,
  ⟨2, 5, 5,
    [⟨5, false, 3892643213082624000⟩, ⟨7, false, 34145993097216000⟩, ⟨9, false, 41845579776000⟩,
      ⟨11, true, 996323328000⟩],
    [⟨1, true, 1407991282983292943541282118041600000⟩, ⟨3, true, 136274668504840298127016896705331200000⟩,
      ⟨5, false, 19395766748110949708473132533153792000000⟩,
      ⟨7, false, 2116161446922730856536725085703110656000000⟩,
      ⟨9, true, 110691521839035152495767158329085788160000000⟩,
      ⟨11, true, 10072928487352198877114811407946806722560000000⟩]⟩,
  ⟨2, 4, 6,
    [⟨12, true, 122624409600⟩, ⟨14, true, 5579410636800⟩, ⟨16, false, 2678117105664000⟩,
      ⟨18, false, 409751917166592000⟩],
    [⟨12, true, 65023469126381994589708663102156623052800000000⟩,
      ⟨14, true, 1133742538613839905666715151524782145536000000⟩,
      ⟨16, false, 13763471094516753956848327694831163801600000⟩,
      ⟨18, false, 201319828535370731548461323925218918400000⟩, ⟨20, true, 798121822018086992977264583796326400000⟩,
      ⟨22, true, 12003870940271211027708496199024640000⟩, ⟨24, false, 27304640212656259448449856962560000⟩]⟩,
  ⟨2, 3, 7,
    [⟨7, true, 45527990796288000⟩, ⟨9, true, 167382319104000⟩, ⟨11, false, 1594117324800⟩],
    [⟨1, true, 313923825288692832852125732044800000⟩, ⟨3, false, 158845455596078573423175620414668800000⟩,
      ⟨5, false, 8964096697490950172014167592009728000000⟩, ⟨7, true, 3065721070541904958828845316467326976000000⟩,
      ⟨9, true, 95932652260497132162998203885207683072000000⟩,
      ⟨11, false, 20145856974704397754229622815893613445120000000⟩]⟩,
  ⟨2, 2, 8,
    [⟨12, false, 245248819200⟩, ⟨16, true, 5356234211328000⟩],
    [⟨12, false, 130046938252763989179417326204313246105600000000⟩,
      ⟨16, true, 27526942189033507913696655389662327603200000⟩,
      ⟨20, false, 1596243644036173985954529167592652800000⟩, ⟨24, true, 54609280425312518896899713925120000⟩]⟩,
  ⟨2, 1, 9,
    [⟨9, false, 669529276416000⟩, ⟨11, true, 3188234649600⟩],
    [⟨1, false, 623135060453402613368034951168000000⟩, ⟨3, false, 19714024289941380619552860143616000000⟩,
      ⟨5, true, 21864859754388877355410663208386560000000⟩, ⟨7, true, 396780271298012035600635953569333248000000⟩,
      ⟨9, false, 556224897241151641291229970603656085504000000⟩,
      ⟨11, true, 33511858236767892418093507184130722365440000000⟩]⟩,
  ⟨2, 0, 10,
    [⟨12, true, 980995276800⟩, ⟨14, false, 89270570188800⟩],
    [⟨12, true, 217611876676291741893558325848550831816704000000⟩,
      ⟨14, false, 2938475559264442204483118862115251683328000000⟩,
      ⟨16, false, 13854206791884808371067352516881966694400000⟩,
      ⟨18, true, 206990809620874132437150375303394099200000⟩, ⟨20, true, 315103274797363890108530795961384960000⟩,
      ⟨22, false, 6114096022350727458723702578872320000⟩, ⟨24, false, 6501104812537204630583299276800000⟩]⟩,
  ⟨1, 11, 0,
    [⟨0, true, 620448401733239439360000⟩, ⟨2, true, 11240007277776076800000⟩, ⟨4, true, 107047688359772160000⟩,
      ⟨6, true, 704261107630080000⟩, ⟨8, true, 3452260331520000⟩, ⟨10, true, 11507534438400⟩],
    [⟨0, true, 214010693419164356918611279872000000⟩, ⟨2, true, 31641169959969061850130458817331200000⟩,
      ⟨4, true, 2728893153926448547940596151903846400000⟩, ⟨6, true, 106260243595479006685070597252186112000000⟩,
      ⟨10, false, 55345760919517576247883579164542894080000000⟩]⟩,
  ⟨1, 10, 1,
    [⟨13, true, 523069747200⟩, ⟨15, true, 235381386240000⟩, ⟨17, true, 53353114214400000⟩,
      ⟨19, true, 8515157028618240000⟩, ⟨21, true, 919636959090769920000⟩, ⟨23, true, 51704033477769953280000⟩],
    [⟨13, false, 387420326436623033735185054151800258560000000⟩,
      ⟨15, false, 1844858697317252541596119305484763136000000⟩,
      ⟨17, true, 956342192359311060165635375269675008000000⟩, ⟨19, true, 30085253739145511971118345657253888000000⟩,
      ⟨21, true, 413026516081717979111925431559782400000⟩, ⟨23, true, 3255979841898864931939214897971200000⟩]⟩,
  ⟨1, 9, 2,
    [⟨2, false, 4496002911110430720000⟩, ⟨4, false, 77852864261652480000⟩, ⟨6, false, 691456360218624000⟩,
      ⟨8, false, 4017175658496000⟩, ⟨10, false, 14645952921600⟩],
    [⟨0, true, 213007518293762023995555289497600000⟩, ⟨2, true, 422826650530043765057366733619200000⟩,
      ⟨4, false, 2899448976046851582186883411397836800000⟩, ⟨6, false, 312374971420752115396891933056958464000000⟩,
      ⟨8, false, 9916115498080232411079141266980601856000000⟩,
      ⟨10, true, 27672880459758788123941789582271447040000000⟩]⟩,
  ⟨1, 8, 3,
    [⟨13, false, 697426329600⟩, ⟨15, false, 292919058432000⟩, ⟨17, false, 56909988495360000⟩,
      ⟨19, false, 6812125622894592000⟩, ⟨21, false, 408727537373675520000⟩],
    [⟨13, true, 193710163218311516867592527075900129280000000⟩,
      ⟨15, false, 78406494635983233017835070483102433280000000⟩,
      ⟨17, false, 3103025198612658227133178611247349760000000⟩,
      ⟨19, false, 37214883745225150437576516562845696000000⟩, ⟨21, false, 64383406273856461017389999534899200000⟩,
      ⟨23, true, 2565282103232319152404432316006400000⟩]⟩,
  ⟨1, 7, 4,
    [⟨4, true, 38926432130826240000⟩, ⟨6, true, 614627875749888000⟩, ⟨8, true, 4686704934912000⟩,
      ⟨10, true, 19527937228800⟩],
    [⟨0, false, 82594751991458743998276540825600000⟩, ⟨2, false, 19392075063649469123316286488576000000⟩,
      ⟨4, true, 511667466361209102738861778481971200000⟩, ⟨6, true, 393012177553491503448683095510745088000000⟩,
      ⟨8, true, 29748346494240697233237423800941805568000000⟩,
      ⟨10, true, 470438967815899398107010422898614599680000000⟩]⟩,
  ⟨1, 6, 5,
    [⟨13, true, 996323328000⟩, ⟨15, true, 376610217984000⟩, ⟨17, true, 56909988495360000⟩,
      ⟨19, true, 3892643213082624000⟩],
    [⟨13, true, 3293072774711295786749072960290302197760000000⟩,
      ⟨15, true, 253668070881122224469466404504154931200000000⟩,
      ⟨17, true, 4412060965459091096721601500800876544000000⟩,
      ⟨19, true, 15459100388703972697090804508786688000000⟩, ⟨21, false, 201130266977258229338887204267622400000⟩,
      ⟨23, false, 1412703873107275995877498630963200000⟩]⟩,
  ⟨1, 5, 6,
    [⟨6, false, 409751917166592000⟩, ⟨8, false, 5356234211328000⟩, ⟨10, false, 27897053184000⟩],
    [⟨0, false, 47818014310844535999002207846400000⟩, ⟨2, true, 12171827082009533967717394651545600000⟩,
      ⟨4, true, 1876114043324433376709159854433894400000⟩, ⟨6, false, 222694340301163450180413911262560256000000⟩,
      ⟨8, false, 49580577490401162055395706334903009280000000⟩,
      ⟨10, false, 1909428751723356380551983481176729845760000000⟩]⟩,
  ⟨1, 4, 7,
    [⟨13, false, 1594117324800⟩, ⟨15, false, 502146957312000⟩, ⟨17, false, 45527990796288000⟩],
    [⟨13, false, 13366001262063494663863884368237108920320000000⟩,
      ⟨15, false, 460292244980654509128231766718448402432000000⟩,
      ⟨17, false, 3462501341839916994429481270036660224000000⟩,
      ⟨19, true, 12900763056897927183396495616376832000000⟩, ⟨21, true, 178559479886019954042728480558284800000⟩,
      ⟨23, false, 309211235164709780515909219123200000⟩]⟩,
  ⟨1, 3, 8,
    [⟨8, true, 5356234211328000⟩, ⟨10, true, 44635285094400⟩],
    [⟨0, true, 47818014310844535999002207846400000⟩, ⟨2, true, 2268668881270336343480389022515200000⟩,
      ⟨4, false, 1876114043324433376709159854433894400000⟩, ⟨6, false, 117941334203492656356124457233809408000000⟩,
      ⟨8, true, 49580577490401162055395706334903009280000000⟩,
      ⟨10, true, 4787408319538270345441929597732960337920000000⟩]⟩,
  ⟨1, 2, 9,
    [⟨13, true, 3188234649600⟩, ⟨15, true, 669529276416000⟩],
    [⟨13, true, 33511858236767892418093507184130722365440000000⟩,
      ⟨15, true, 556224897241151641291229970603656085504000000⟩,
      ⟨17, true, 396780271298012035600635953569333248000000⟩,
      ⟨19, false, 21864859754388877355410663208386560000000⟩, ⟨21, false, 19714024289941380619552860143616000000⟩,
      ⟨23, true, 623135060453402613368034951168000000⟩]⟩,
  ⟨1, 1, 10,
    [⟨10, false, 89270570188800⟩],
    [⟨2, false, 4537337762540672686960778045030400000⟩, ⟨6, true, 235882668406985312712248914467618816000000⟩,
      ⟨10, false, 9574816639076540690883859195465920675840000000⟩]⟩,
  ⟨1, 0, 11,
    [⟨13, false, 12752938598400⟩],
    [⟨13, false, 67023716473535784836187014368261444730880000000⟩,
      ⟨15, false, 319160554635884689696128639848864022528000000⟩,
      ⟨17, true, 2122944015662867814410240230208569344000000⟩, ⟨19, true, 6207438642289087176638129328095232000000⟩,
      ⟨21, false, 49910715387947399556568558495334400000⟩, ⟨23, false, 98637777446536362760016914022400000⟩]⟩,
  ⟨0, 12, 0,
    [⟨12, false, 442597478400⟩, ⟨14, false, 69045206630400⟩, ⟨16, false, 10356780994560000⟩,
      ⟨18, false, 1408522215260160000⟩, ⟨20, false, 160571532539658240000⟩, ⟨22, false, 13488008733331292160000⟩,
      ⟨24, false, 620448401733239439360000⟩],
    [⟨12, true, 619271134536971377044844410496729743360000000⟩,
      ⟨14, true, 69412808486561626877553988868864212992000000⟩,
      ⟨16, false, 924369916937054344856315374642554470400000⟩,
      ⟨18, false, 104913150081812916440747450496240844800000⟩,
      ⟨20, false, 2130031810366021962620350180098048000000⟩, ⟨22, false, 21098745798291019293282821021368320000⟩,
      ⟨24, false, 120917489719781192912962049802240000⟩]⟩,
  ⟨0, 11, 1,
    [⟨1, true, 51704033477769953280000⟩, ⟨3, true, 1124000727777607680000⟩, ⟨5, true, 13380961044971520000⟩,
      ⟨7, true, 117376851271680000⟩, ⟨9, true, 863065082880000⟩, ⟨11, true, 5753767219200⟩],
    [⟨1, true, 1880276800161079634107455818956800000⟩, ⟨3, true, 283079223037601381590944662421504000000⟩,
      ⟨5, true, 24492609339383458987693577380823040000000⟩, ⟨7, true, 956342192359311060165635375269675008000000⟩,
      ⟨9, true, 1844858697317252541596119305484763136000000⟩,
      ⟨11, false, 387420326436623033735185054151800258560000000⟩]⟩,
  ⟨0, 10, 2,
    [⟨12, true, 482833612800⟩, ⟨14, true, 73229764608000⟩, ⟨16, true, 10042939146240000⟩,
      ⟨18, true, 1152427267031040000⟩, ⟨20, true, 97316080327065600000⟩, ⟨22, true, 4496002911110430720000⟩],
    [⟨12, false, 3467918353407039711451128698781686562816000000⟩,
      ⟨14, true, 46275205657707751251702659245909475328000000⟩,
      ⟨16, true, 10729496213772434481399685207507442073600000⟩,
      ⟨18, true, 232510224505639436436251106505182412800000⟩, ⟨20, true, 1421939495432896081102665823719260160000⟩,
      ⟨22, false, 8897472286121193642604084938670080000⟩, ⟨24, false, 196052438056093291459961369395200000⟩]⟩,
  ⟨0, 9, 3,
    [⟨3, false, 408727537373675520000⟩, ⟨5, false, 8758447229435904000⟩, ⟨7, false, 102437979291648000⟩,
      ⟨9, false, 878757175296000⟩, ⟨11, false, 6276836966400⟩],
    [⟨1, true, 2546898335817969423488894631936000000⟩, ⟨3, true, 73685592585517423848652067674521600000⟩,
      ⟨5, false, 20774095775711881206161151665111040000000⟩,
      ⟨7, false, 2519724286960879850010876183777902592000000⟩,
      ⟨9, false, 80251353333300485559431189788587196416000000⟩,
      ⟨11, true, 193710163218311516867592527075900129280000000⟩]⟩,
  ⟨0, 8, 4,
    [⟨12, false, 536481792000⟩, ⟨14, false, 78111748915200⟩, ⟨16, false, 9373409869824000⟩,
      ⟨18, false, 819503834333184000⟩, ⟨20, false, 38926432130826240000⟩],
    [⟨12, true, 866979588351759927862782174695421640704000000⟩,
      ⟨14, false, 670990482036762393149688559065687392256000000⟩,
      ⟨16, false, 23506216599411596683616117962536124416000000⟩,
      ⟨18, false, 195648847449867330659772272547043737600000⟩, ⟨20, true, 838405880984597219448344360528117760000⟩,
      ⟨22, true, 17893645858191694596693289819176960000⟩, ⟨24, true, 27712357684647120465434813399040000⟩]⟩,
  ⟨0, 7, 5,
    [⟨5, true, 3892643213082624000⟩, ⟨7, true, 79673983893504000⟩, ⟨9, true, 878757175296000⟩,
      ⟨11, true, 6974263296000⟩],
    [⟨1, false, 569570174687733860081138348851200000⟩, ⟨3, false, 225495384423030091374071098481049600000⟩,
      ⟨5, false, 5225751061479790642313568939147264000000⟩, ⟨7, true, 2662158230503755965354694218392535040000000⟩,
      ⟨9, true, 222305473026728931262332376310913957888000000⟩,
      ⟨11, true, 3293072774711295786749072960290302197760000000⟩]⟩,
  ⟨0, 6, 6,
    [⟨12, true, 613122048000⟩, ⟨14, true, 83691159552000⟩, ⟨16, true, 8034351316992000⟩,
      ⟨18, true, 409751917166592000⟩],
    [⟨12, true, 22541469297145758124432336542080962658304000000⟩,
      ⟨14, true, 1804733020650602298816403710590469537792000000⟩,
      ⟨16, true, 27436206491665453499477630567611524710400000⟩,
      ⟨18, false, 5670981085503400888689051378175180800000⟩, ⟨20, false, 2079262191256897088823262955427594240000⟩,
      ⟨22, false, 5889774917920483568984793620152320000⟩, ⟨24, true, 75412815825431573714766271610880000⟩]⟩,
  ⟨0, 5, 7,
    [⟨7, false, 45527990796288000⟩, ⟨9, false, 836911595520000⟩, ⟨11, false, 7970586624000⟩],
    [⟨1, false, 838421108295559083460143769190400000⟩, ⟨3, true, 89220715918189793247054201775718400000⟩,
      ⟨5, true, 24621517809590740350786701472301056000000⟩, ⟨7, false, 545996783581025108817969132689424384000000⟩,
      ⟨9, false, 332996994865764083758099534639999746048000000⟩,
      ⟨11, false, 13366001262063494663863884368237108920320000000⟩]⟩,
  ⟨0, 4, 8,
    [⟨12, false, 735746457600⟩, ⟨14, false, 89270570188800⟩, ⟨16, false, 5356234211328000⟩],
    [⟨12, false, 87564938423527752714140999644237585711104000000⟩,
      ⟨14, false, 2938475559264442204483118862115251683328000000⟩,
      ⟨16, false, 13672735397148699542629302872780360908800000⟩,
      ⟨18, true, 206990809620874132437150375303394099200000⟩, ⟨20, true, 1281140369238810095845998371631267840000⟩,
      ⟨22, false, 6114096022350727458723702578872320000⟩, ⟨24, false, 48108175612775314266316414648320000⟩]⟩,
  ⟨0, 3, 9,
    [⟨9, true, 669529276416000⟩, ⟨11, true, 9564703948800⟩],
    [⟨1, true, 524497283006866250608018037145600000⟩, ⟨3, true, 69624739677888780176121418638950400000⟩,
      ⟨5, false, 15657421112099790178772533880291328000000⟩,
      ⟨7, false, 2519724286960879850010876183777902592000000⟩,
      ⟨9, true, 237064342605266951595101330754792062976000000⟩,
      ⟨11, true, 33511858236767892418093507184130722365440000000⟩]⟩,
  ⟨0, 2, 10,
    [⟨12, true, 980995276800⟩, ⟨14, true, 89270570188800⟩],
    [⟨12, true, 217611876676291741893558325848550831816704000000⟩,
      ⟨14, true, 2938475559264442204483118862115251683328000000⟩,
      ⟨16, false, 13854206791884808371067352516881966694400000⟩,
      ⟨18, false, 206990809620874132437150375303394099200000⟩, ⟨20, true, 315103274797363890108530795961384960000⟩,
      ⟨22, true, 6114096022350727458723702578872320000⟩, ⟨24, false, 6501104812537204630583299276800000⟩]⟩,
  ⟨0, 1, 11,
    [⟨11, false, 12752938598400⟩],
    [⟨1, true, 98637777446536362760016914022400000⟩, ⟨3, false, 49910715387947399556568558495334400000⟩,
      ⟨5, false, 6207438642289087176638129328095232000000⟩, ⟨7, true, 2122944015662867814410240230208569344000000⟩,
      ⟨9, true, 319160554635884689696128639848864022528000000⟩,
      ⟨11, false, 67023716473535784836187014368261444730880000000⟩]⟩,
  ⟨0, 0, 12,
    [⟨12, false, 1961990553600⟩],
    [⟨12, false, 435223753352583483787116651697101663633408000000⟩,
      ⟨16, true, 27708413583769616742134705033763933388800000⟩,
      ⟨20, false, 630206549594727780217061591922769920000⟩, ⟨24, true, 13002209625074409261166598553600000⟩]⟩]

/-- degree 12: the rows of `V` -/
def certInverse12 : List (List CertEntry) := [
  [⟨0, false, 846787826880⟩, ⟨4, true, 3196684301690880⟩, ⟨8, false, 8927543573377228800⟩],
  [⟨1, false, 124225286964480⟩, ⟨3, true, 244308614330880⟩, ⟨5, true, 402575679013939200⟩,
    ⟨7, false, 3338060749593292800⟩, ⟨9, false, 893875200342869606400⟩, ⟨11, true, 7734513632717684736000⟩],
  [⟨2, false, 4841069215196160⟩, ⟨6, true, 33165787793686732800⟩, ⟨10, false, 50826803872144785408000⟩],
  [⟨1, true, 244308614330880⟩, ⟨3, false, 617127837138109440⟩, ⟨5, true, 3569931299354112000⟩,
    ⟨7, true, 3528698261156645068800⟩, ⟨9, false, 48081098573091363225600⟩, ⟨11, false, 3913663898155148476416000⟩],
  [⟨0, true, 3196684301690880⟩, ⟨4, false, 55316327143295877120⟩, ⟨8, true, 350267364962608368844800⟩],
  [⟨1, true, 402575679013939200⟩, ⟨3, true, 3569931299354112000⟩, ⟨5, false, 6032590644781983744000⟩,
    ⟨7, true, 68307798990422863872000⟩, ⟨9, true, 30339226094118530383872000⟩,
    ⟨11, false, 486745748393070784020480000⟩],
  [⟨2, true, 33165787793686732800⟩, ⟨6, false, 723383251573259870208000⟩, ⟨10, true, 2642334062705241398968320000⟩],
  [⟨1, false, 3338060749593292800⟩, ⟨3, true, 3528698261156645068800⟩, ⟨5, true, 68307798990422863872000⟩,
    ⟨7, false, 66601492496231647223808000⟩, ⟨9, true, 1385325941501374164762624000⟩,
    ⟨11, true, 166467045950430208135004160000⟩],
  [⟨0, false, 8927543573377228800⟩, ⟨4, true, 350267364962608368844800⟩, ⟨8, false, 9256611181330022983925760000⟩],
  [⟨1, false, 893875200342869606400⟩, ⟨3, false, 48081098573091363225600⟩, ⟨5, true, 30339226094118530383872000⟩,
    ⟨7, true, 1385325941501374164762624000⟩, ⟨9, false, 711596602814058697108488192000⟩,
    ⟨11, true, 25026432313876817488820305920000⟩],
  [⟨2, false, 50826803872144785408000⟩, ⟨6, true, 2642334062705241398968320000⟩,
    ⟨10, false, 107256138488043503523515596800000⟩],
  [⟨1, true, 7734513632717684736000⟩, ⟨3, false, 3913663898155148476416000⟩,
    ⟨5, false, 486745748393070784020480000⟩, ⟨7, true, 166467045950430208135004160000⟩,
    ⟨9, true, 25026432313876817488820305920000⟩, ⟨11, false, 5255550785914131672652264243200000⟩],
  [⟨12, false, 221827649758050029679366470369280000⟩, ⟨16, true, 14122602951848186075861188608000⟩,
    ⟨20, false, 321207738966112716464947200⟩, ⟨24, true, 6627050064648389376000⟩],
  [⟨13, false, 5255550785914131672652264243200000⟩, ⟨15, false, 25026432313876817488820305920000⟩,
    ⟨17, true, 166467045950430208135004160000⟩, ⟨19, true, 486745748393070784020480000⟩,
    ⟨21, false, 3913663898155148476416000⟩, ⟨23, false, 7734513632717684736000⟩],
  [⟨14, false, 32916509360809561730840002560000⟩, ⟨18, true, 2318690349833157718032384000⟩,
    ⟨22, false, 68489492219215261286400⟩],
  [⟨13, false, 25026432313876817488820305920000⟩, ⟨15, false, 711596602814058697108488192000⟩,
    ⟨17, false, 1385325941501374164762624000⟩, ⟨19, true, 30339226094118530383872000⟩,
    ⟨21, true, 48081098573091363225600⟩, ⟨23, false, 893875200342869606400⟩],
  [⟨12, true, 14122602951848186075861188608000⟩, ⟨16, false, 4492594898141345427872563200⟩,
    ⟨20, true, 283308713821272397547520⟩, ⟨24, false, 9892025279649152640⟩],
  [⟨13, true, 166467045950430208135004160000⟩, ⟨15, false, 1385325941501374164762624000⟩,
    ⟨17, false, 66601492496231647223808000⟩, ⟨19, false, 68307798990422863872000⟩,
    ⟨21, true, 3528698261156645068800⟩, ⟨23, true, 3338060749593292800⟩],
  [⟨14, true, 2318690349833157718032384000⟩, ⟨18, false, 459748679729729357721600⟩, ⟨22, true, 28362868975056591360⟩],
  [⟨13, true, 486745748393070784020480000⟩, ⟨15, true, 30339226094118530383872000⟩,
    ⟨17, false, 68307798990422863872000⟩, ⟨19, false, 6032590644781983744000⟩, ⟨21, false, 3569931299354112000⟩,
    ⟨23, true, 402575679013939200⟩],
  [⟨12, false, 321207738966112716464947200⟩, ⟨16, true, 283308713821272397547520⟩,
    ⟨20, false, 42255110985306202368⟩, ⟨24, true, 3002563219415760⟩],
  [⟨13, false, 3913663898155148476416000⟩, ⟨15, true, 48081098573091363225600⟩, ⟨17, true, 3528698261156645068800⟩,
    ⟨19, false, 3569931299354112000⟩, ⟨21, false, 617127837138109440⟩, ⟨23, false, 244308614330880⟩],
  [⟨14, false, 68489492219215261286400⟩, ⟨18, true, 28362868975056591360⟩, ⟨22, false, 4175531526511296⟩],
  [⟨13, false, 7734513632717684736000⟩, ⟨15, false, 893875200342869606400⟩, ⟨17, true, 3338060749593292800⟩,
    ⟨19, true, 402575679013939200⟩, ⟨21, false, 244308614330880⟩, ⟨23, false, 124225286964480⟩],
  [⟨12, true, 6627050064648389376000⟩, ⟨16, false, 9892025279649152640⟩, ⟨20, true, 3002563219415760⟩,
    ⟨24, false, 811553776649⟩]]

/-- degree 12: the denominator -/
def certDen12 : ℕ := 1487165038080319683299855987179045594761314124693504000000000

/-- degree 13: the rows of `Qᵀ` and `U` -/
def certRows13 : List CertRow := [
  ⟨13, 0, 0,
    [⟨14, false, 149597947699200⟩, ⟨16, true, 26927630585856000⟩, ⟨18, false, 4577697199595520000⟩,
      ⟨20, true, 695809974338519040000⟩, ⟨22, false, 87672056766653399040000⟩,
      ⟨24, true, 8065829222532112711680000⟩, ⟨26, false, 403291461126605635584000000⟩],
    [⟨14, true, 5750374820700448501130698097469633331200000000000⟩,
      ⟨16, false, 464821964673286253841398096212128694272000000000⟩,
      ⟨18, false, 6624206288551987243949578690712567808000000000⟩,
      ⟨20, true, 449155308815031161949772664862985420800000000⟩,
      ⟨22, false, 6819477166024991244326015453469081600000000⟩,
      ⟨24, true, 52241672523708027828481797233049600000000⟩, ⟨26, false, 234013669388803366452960102973440000000⟩]⟩,
  ⟨12, 1, 0,
    [⟨0, false, 403291461126605635584000000⟩, ⟨2, true, 6824932419065633832960000⟩,
      ⟨4, false, 60696039299990814720000⟩, ⟨6, true, 374666909259202560000⟩, ⟨8, false, 1760652769075200000⟩,
      ⟨10, true, 6214068596736000⟩, ⟨12, false, 11507534438400⟩],
    [⟨0, false, 438348738723462222328696355684352000000⟩, ⟨2, true, 80576122543820228490746767029043200000000⟩,
      ⟨4, false, 8821139245076943521244247873919385600000000⟩,
      ⟨6, true, 475612571706970789986450713385055027200000000⟩,
      ⟨8, false, 3429553610385071409988079747673882624000000000⟩,
      ⟨10, false, 512741754845789991350820580357708972032000000000⟩,
      ⟨12, true, 5750374820700448501130698097469633331200000000000⟩]⟩,
  ⟨12, 0, 1,
    [⟨13, false, 11507534438400⟩, ⟨15, true, 2071356198912000⟩, ⟨17, false, 352130553815040000⟩,
      ⟨19, true, 53523844179886080000⟩, ⟨21, false, 6744004366665646080000⟩, ⟨23, true, 620448401733239439360000⟩,
      ⟨25, false, 31022420086661971968000000⟩],
    [⟨13, true, 40252623744903139507914886682287433318400000000000⟩,
      ⟨15, false, 3910254878076304980768874706279350665216000000000⟩,
      ⟨17, false, 45946622341871230670799205386644619264000000000⟩,
      ⟨19, true, 4665874306270100757496399772069658624000000000⟩,
      ⟨21, false, 85708422845680407543533138199183360000000000⟩,
      ⟨23, true, 775149573893735274035825381002444800000000⟩, ⟨25, false, 4087011152528604320458117283315712000000⟩]⟩,
  ⟨11, 2, 0,
    [⟨14, false, 11507534438400⟩, ⟨16, true, 690452066304000⟩, ⟨18, true, 352130553815040000⟩,
      ⟨20, false, 160571532539658240000⟩, ⟨22, true, 38216024744438661120000⟩,
      ⟨24, false, 5584035615599154954240000⟩, ⟨26, true, 403291461126605635584000000⟩],
    [⟨14, true, 26451724175222063105201211248360313323520000000000⟩,
      ⟨16, true, 924851950329322133931853944009699360768000000000⟩,
      ⟨18, false, 51130102912818530381785755142261309440000000000⟩,
      ⟨20, true, 432918297009074443185830061875920896000000000⟩,
      ⟨22, true, 3527260409623500395997222130207948800000000⟩,
      ⟨24, false, 85446282885929600481252987214233600000000⟩, ⟨26, true, 692665992392766581706134755737600000000⟩]⟩,
  ⟨11, 1, 1,
    [⟨1, false, 31022420086661971968000000⟩, ⟨3, true, 517040334777699532800000⟩,
      ⟨5, false, 4496002911110430720000⟩, ⟨7, true, 26761922089943040000⟩, ⟨9, false, 117376851271680000⟩,
      ⟨11, true, 345226033152000⟩],
    [⟨1, false, 7233561437567755263849061259673600000000⟩, ⟨3, true, 1162469070268428576667836421767168000000000⟩,
      ⟨5, false, 109805462622278524905228749921845248000000000⟩,
      ⟨7, true, 4725784517798934770993929193584066560000000000⟩,
      ⟨11, false, 3117811198466156795297441626269249699840000000000⟩]⟩,
  ⟨11, 0, 2,
    [⟨14, true, 161105482137600⟩, ⟨16, false, 27618082652160000⟩, ⟨18, true, 4225566645780480000⟩,
      ⟨20, false, 535238441798860800000⟩, ⟨22, true, 49456032022214737920000⟩,
      ⟨24, false, 2481793606932957757440000⟩],
    [⟨14, false, 32202098995922511606331909345829946654720000000000⟩,
      ⟨16, false, 460029985656035880090455847797570666496000000000⟩,
      ⟨18, true, 57754309201370517625735333832973877248000000000⟩,
      ⟨20, false, 882073605824105605135602726738906316800000000⟩,
      ⟨22, true, 3292216756401490848328793323261132800000000⟩,
      ⟨24, true, 33204610362221572652771189981184000000000⟩, ⟨26, false, 458652323003963215253174652764160000000⟩]⟩,
  ⟨10, 3, 0,
    [⟨0, true, 403291461126605635584000000⟩, ⟨2, false, 4343138812132676075520000⟩,
      ⟨4, true, 20232013099996938240000⟩, ⟨6, false, 34060628114472960000⟩, ⟨8, false, 160059342643200000⟩,
      ⟨10, true, 1318135762944000⟩, ⟨12, false, 3138418483200⟩],
    [⟨0, true, 968307864280051486567049755361280000000⟩, ⟨2, false, 93720933840805587678341762541158400000000⟩,
      ⟨4, true, 1040346917468044536795781850254540800000000⟩,
      ⟨6, true, 716035736366746163765235347462553600000000000⟩,
      ⟨8, false, 56454524043096723438388253380659118080000000000⟩,
      ⟨10, true, 704420915535804941388510516940030083072000000000⟩,
      ⟨12, true, 26451724175222063105201211248360313323520000000000⟩]⟩,
  ⟨10, 2, 1,
    [⟨13, false, 1046139494400⟩, ⟨15, true, 125536739328000⟩, ⟨17, true, 10670622842880000⟩,
      ⟨19, false, 9731608032706560000⟩, ⟨21, true, 2656728992928890880000⟩, ⟨23, false, 413632267822159626240000⟩,
      ⟨25, true, 31022420086661971968000000⟩],
    [⟨13, true, 185162069226554441736408478738522193264640000000000⟩,
      ⟨15, true, 6517091463460508301281457843798917775360000000000⟩,
      ⟨17, false, 487372454166229189139949853457107648512000000000⟩,
      ⟨19, true, 5674711994112284705063188911976611840000000000⟩,
      ⟨21, true, 28492286005642446184878251482860748800000000⟩,
      ⟨23, false, 1102034968753405214383671110270976000000000⟩,
      ⟨25, true, 10713583558824557571804811568873472000000⟩]⟩,
  ⟨10, 1, 2,
    [⟨2, false, 2481793606932957757440000⟩, ⟨4, true, 40464026199993876480000⟩, ⟨6, false, 340606281144729600000⟩,
      ⟨8, true, 1920712111718400000⟩, ⟨10, false, 7532204359680000⟩, ⟨12, true, 14645952921600⟩],
    [⟨0, false, 529959125556589264238353399676928000000⟩, ⟨2, true, 13144811296985359187594995512115200000000⟩,
      ⟨4, true, 7780792327608898984448466023664844800000000⟩,
      ⟨6, false, 1191648308073716953751686060847608627200000000⟩,
      ⟨8, true, 59884077653481794848376333128333000704000000000⟩,
      ⟨10, false, 191679160690014950037689936582321111040000000000⟩,
      ⟨12, false, 32202098995922511606331909345829946654720000000000⟩]⟩,
  ⟨10, 0, 3,
    [⟨13, true, 12553673932800⟩, ⟨15, false, 2196892938240000⟩, ⟨17, true, 341459930972160000⟩,
      ⟨19, false, 43792236147179520000⟩, ⟨21, true, 4087275373736755200000⟩, ⟨23, false, 206816133911079813120000⟩],
    [⟨13, false, 225414692971457581244323365420809626583040000000000⟩,
      ⟨15, false, 2606836585384203320512583137519567110144000000000⟩,
      ⟨17, true, 533319076508100419810749058843752267776000000000⟩,
      ⟨19, false, 10340586300382385462559588684046270464000000000⟩,
      ⟨21, true, 57216136840037961358654886716322611200000000⟩,
      ⟨23, true, 326885394859669940347845729268531200000000⟩, ⟨25, false, 6626572406295953251346694285557760000000⟩]⟩,
  ⟨9, 4, 0,
    [⟨14, false, 3138418483200⟩, ⟨16, false, 188305108992000⟩, ⟨18, true, 185668837466112000⟩,
      ⟨20, false, 24329020081766400000⟩, ⟨22, false, 6744004366665646080000⟩, ⟨24, true, 3102242008666197196800000⟩,
      ⟨26, false, 403291461126605635584000000⟩],
    [⟨14, false, 50603298422163946809950143257732773314560000000000⟩,
      ⟨16, true, 3373553228144263120663342883848851554304000000000⟩,
      ⟨18, false, 5387061378869701210209586452967194624000000000⟩,
      ⟨20, false, 745583800998398365170684196045612646400000000⟩,
      ⟨22, true, 4064337387251477430726485829117542400000000⟩,
      ⟨24, true, 71656544588965526594138769299865600000000⟩, ⟨26, false, 1151565183353855970733617982734336000000⟩]⟩,
  ⟨9, 3, 1,
    [⟨1, true, 31022420086661971968000000⟩, ⟨3, false, 310224200866619719680000⟩, ⟨5, true, 1226182612121026560000⟩,
      ⟨7, false, 486580401635328000⟩, ⟨9, false, 19207121117184000⟩, ⟨11, true, 94152554496000⟩],
    [⟨1, true, 14433215555896911674898830044692480000000⟩, ⟨3, false, 1178003353733554097601465764806656000000000⟩,
      ⟨5, false, 6862841413892407806576796870115328000000000⟩,
      ⟨7, true, 9166681316439777729552054145001717760000000000⟩,
      ⟨9, false, 492889270345752728668345551211682856960000000000⟩,
      ⟨11, true, 1558905599233078397648720813134624849920000000000⟩]⟩,
  ⟨9, 2, 2,
    [⟨14, true, 14645952921600⟩, ⟨16, false, 502146957312000⟩, ⟨18, false, 537799391281152000⟩,
      ⟨20, true, 184900552621424640000⟩, ⟨22, false, 31472020377773015040000⟩, ⟨24, true, 2481793606932957757440000⟩],
    [⟨14, true, 24151574246941883704748932009372459991040000000000⟩,
      ⟨16, false, 4298405178473585254595196827858550915072000000000⟩,
      ⟨18, true, 56517164291688231591995341595228504064000000000⟩,
      ⟨20, true, 312665503989323921984854134169691750400000000⟩,
      ⟨22, false, 7591597796874977826723707959325491200000000⟩,
      ⟨24, true, 13789738296964073887114217914368000000000⟩, ⟨26, true, 458899190961089389027483226996736000000⟩]⟩,
  ⟨9, 1, 3,
    [⟨3, false, 206816133911079813120000⟩, ⟨5, true, 3269820298989404160000⟩, ⟨7, false, 26275341688307712000⟩,
      ⟨9, true, 136583972388864000⟩, ⟨11, false, 439378587648000⟩],
    [⟨1, false, 7199654118329156411049768785018880000000⟩, ⟨3, true, 15534283465125520933629343039488000000000⟩,
      ⟨5, true, 116668304036170932711805546791960576000000000⟩,
      ⟨7, false, 13892465834238712500545983338585784320000000000⟩,
      ⟨9, true, 492889270345752728668345551211682856960000000000⟩,
      ⟨11, true, 1558905599233078397648720813134624849920000000000⟩]⟩,
  ⟨9, 0, 4,
    [⟨14, false, 175751435059200⟩, ⟨16, true, 28120229609472000⟩, ⟨18, false, 3687767254499328000⟩,
      ⟨20, true, 350337889177436160000⟩, ⟨22, false, 17984011644441722880000⟩],
    [⟨14, true, 8050524748980627901582977336457486663680000000000⟩,
      ⟨16, true, 4758435164129621134685652675656121581568000000000⟩,
      ⟨18, false, 114271473493058749217730675428202381312000000000⟩,
      ⟨20, true, 569408101834781683150748592569214566400000000⟩,
      ⟨22, true, 4299381040473486978394914636064358400000000⟩,
      ⟨24, false, 46994348659185646539885407895552000000000⟩, ⟨26, false, 246867957126173774308574232576000000⟩]⟩,
  ⟨8, 5, 0,
    [⟨0, false, 403291461126605635584000000⟩, ⟨2, true, 1861345205199718318080000⟩,
      ⟨4, true, 2248001455555215360000⟩, ⟨6, false, 34060628114472960000⟩, ⟨8, true, 32011868528640000⟩,
      ⟨10, true, 523069747200000⟩, ⟨12, false, 1743565824000⟩],
    [⟨0, false, 1340939010332167255876333090111488000000⟩, ⟨2, true, 51436442946936808748626050495283200000000⟩,
      ⟨4, true, 7097158719148374819996534951011942400000000⟩,
      ⟨6, false, 655579654337968228672078498269600153600000000⟩,
      ⟨8, false, 28814514352093750659260578701917552640000000000⟩,
      ⟨10, true, 3795247381662296010746260744329957998592000000000⟩,
      ⟨12, false, 50603298422163946809950143257732773314560000000000⟩]⟩,
  ⟨8, 4, 1,
    [⟨13, false, 348713164800⟩, ⟨15, true, 20922789888000⟩, ⟨17, true, 12093372555264000⟩,
      ⟨19, false, 2919482409811968000⟩, ⟨21, false, 204363768686837760000⟩, ⟨23, true, 206816133911079813120000⟩,
      ⟨25, false, 31022420086661971968000000⟩],
    [⟨13, false, 354223088955147627669651002804129413201920000000000⟩,
      ⟨15, true, 28675202439226236525638414512715238211584000000000⟩,
      ⟨17, false, 147705706178776226205514009954612150272000000000⟩,
      ⟨19, false, 7314073236855833619859221264325410816000000000⟩,
      ⟨21, true, 62459706521632879480150491645188505600000000⟩,
      ⟨23, true, 771523374475162896722567713574092800000000⟩, ⟨25, false, 16403478275379438151419809161543680000000⟩]⟩,
  ⟨8, 3, 2,
    [⟨2, true, 2481793606932957757440000⟩, ⟨4, false, 22480014555552153600000⟩, ⟨6, true, 68121256228945920000⟩,
      ⟨8, true, 128047474114560000⟩, ⟨10, false, 1841205510144000⟩, ⟨12, true, 4881984307200⟩],
    [⟨0, true, 372631146052115769309283334750208000000⟩, ⟨2, true, 42284490893868778929715712045875200000000⟩,
      ⟨4, false, 8137505636616419356792316801266483200000000⟩,
      ⟨6, false, 60456082028777935093156849192953446400000000⟩,
      ⟨8, true, 85269038395190474097648832082576670720000000000⟩,
      ⟨10, false, 4499668297198100952134771261269988081664000000000⟩,
      ⟨12, true, 24151574246941883704748932009372459991040000000000⟩]⟩,
  ⟨8, 2, 3,
    [⟨13, true, 1394852659200⟩, ⟨15, false, 146459529216000⟩, ⟨17, false, 22763995398144000⟩,
      ⟨19, true, 12651090442518528000⟩, ⟨21, false, 2452365224242053120000⟩, ⟨23, true, 206816133911079813120000⟩],
    [⟨13, true, 169061019728593185933242524065607219937280000000000⟩,
      ⟨15, false, 35192293902686744826919872356514155986944000000000⟩,
      ⟨17, true, 635078160345005415345463863411719798784000000000⟩,
      ⟨19, true, 1639361242743548914796032352348798976000000000⟩,
      ⟨21, false, 90951992527275325665028743128049254400000000⟩,
      ⟨23, true, 330511594278242317661103396696883200000000⟩, ⟨25, true, 5689894716554880579614997592670208000000⟩]⟩,
  ⟨8, 1, 4,
    [⟨4, false, 17984011644441722880000⟩, ⟨6, true, 272485024915783680000⟩, ⟨8, false, 2048759585832960000⟩,
      ⟨10, true, 9373409869824000⟩, ⟨12, false, 19527937228800⟩],
    [⟨0, true, 157327979504473494929070064926720000000⟩, ⟨2, false, 55429302190854138117310707557990400000000⟩,
      ⟨4, true, 356713309007520372343850777601638400000000⟩,
      ⟨6, true, 1252104390102494888844842910040562073600000000⟩,
      ⟨8, false, 145153116048672268946025165210909671424000000000⟩,
      ⟨10, true, 4691347457888115902172461197852309192704000000000⟩,
      ⟨12, true, 8050524748980627901582977336457486663680000000000⟩]⟩,
  ⟨8, 0, 5,
    [⟨13, false, 13948526592000⟩, ⟨15, true, 2343352467456000⟩, ⟨17, false, 318695935574016000⟩,
      ⟨19, true, 31141145704660992000⟩, ⟨21, false, 1634910149494702080000⟩],
    [⟨13, true, 56353673242864395311080841355202406645760000000000⟩,
      ⟨15, true, 37799130488070948147432455494033723097088000000000⟩,
      ⟨17, false, 1168397236853105835156212922255472066560000000000⟩,
      ⟨19, true, 8701225057638836547763556331697471488000000000⟩,
      ⟨21, true, 33735855687237364306373856411726643200000000⟩,
      ⟨23, false, 657396989137912258008949125965414400000000⟩, ⟨25, true, 936677689741072671731696692887552000000⟩]⟩,
  ⟨7, 6, 0,
    [⟨14, false, 1743565824000⟩, ⟨16, false, 313841848320000⟩, ⟨18, true, 96035605585920000⟩,
      ⟨20, true, 14597412049059840000⟩, ⟨22, false, 6744004366665646080000⟩, ⟨24, false, 620448401733239439360000⟩,
      ⟨26, true, 403291461126605635584000000⟩],
    [⟨14, false, 142609295553371122828041312817246906613760000000000⟩,
      ⟨16, false, 594205398139046345116838803405195444224000000000⟩,
      ⟨18, true, 63329291326014743296766184929649229824000000000⟩,
      ⟨20, true, 166656029805301956044121539288550604800000000⟩,
      ⟨22, false, 9046727631793627447640246527721472000000000⟩,
      ⟨24, false, 16388999332959470013841026318336000000000⟩, ⟨26, true, 1406150933894959189805168427270144000000⟩]⟩,
  ⟨7, 5, 1,
    [⟨1, false, 31022420086661971968000000⟩, ⟨3, true, 103408066955539906560000⟩, ⟨5, true, 408727537373675520000⟩,
      ⟨7, false, 2432902008176640000⟩, ⟨9, false, 3556874280960000⟩, ⟨11, true, 52306974720000⟩],
    [⟨1, false, 18841167056914762538806851749806080000000⟩, ⟨3, true, 481089662034166513787170669461504000000000⟩,
      ⟨5, true, 102942621208386117098651953051729920000000000⟩,
      ⟨7, false, 5580447675273210208301341920083312640000000000⟩,
      ⟨9, false, 492889270345752728668345551211682856960000000000⟩,
      ⟨11, true, 26501395186962332760028253823288622448640000000000⟩]⟩,
  ⟨7, 4, 2,
    [⟨14, true, 4881984307200⟩, ⟨16, true, 502146957312000⟩, ⟨18, false, 281704443052032000⟩,
      ⟨20, true, 9731608032706560000⟩, ⟨22, true, 13488008733331292160000⟩, ⟨24, false, 2481793606932957757440000⟩],
    [⟨14, true, 193212593975535069637991456074979679928320000000000⟩,
      ⟨16, false, 2779347830005216775546504080443656110080000000000⟩,
      ⟨18, false, 57942229947145042086556598476682035200000000000⟩,
      ⟨20, true, 578927771193096409126562656757062041600000000⟩,
      ⟨22, true, 4982390244542150016913760698603929600000000⟩,
      ⟨24, false, 55267545256006056580297742981529600000000⟩, ⟨26, false, 254585750541103219071550444535808000000⟩]⟩,
  ⟨7, 3, 3,
    [⟨3, true, 206816133911079813120000⟩, ⟨5, false, 1634910149494702080000⟩, ⟨7, true, 2919482409811968000⟩,
      ⟨9, true, 22763995398144000⟩, ⟨11, false, 146459529216000⟩],
    [⟨1, true, 4407951501017850863908021705113600000000⟩, ⟨3, true, 696913691699387583814295095345152000000000⟩,
      ⟨5, false, 96079779794493709292075156181614592000000000⟩,
      ⟨7, false, 3586233641166567521250712224918405120000000000⟩,
      ⟨9, true, 985778540691505457336691102423365713920000000000⟩,
      ⟨11, false, 28060300786195411157676974636423247298560000000000⟩]⟩,
  ⟨7, 2, 4,
    [⟨14, false, 19527937228800⟩, ⟨18, true, 819503834333184000⟩, ⟨20, false, 194632160654131200000⟩,
      ⟨22, true, 17984011644441722880000⟩],
    [⟨14, false, 217364168222476953342740388084352139919360000000000⟩,
      ⟨16, true, 7077753008478802030141700908302207025152000000000⟩,
      ⟨18, true, 1425065655456810494561256881453531136000000000⟩,
      ⟨20, false, 891593275182420331111416790926753792000000000⟩,
      ⟨22, true, 2609207552332827809809947260721561600000000⟩,
      ⟨24, true, 41477806959041982693183525067161600000000⟩, ⟨26, false, 204313440419986169955932782460928000000⟩]⟩,
  ⟨7, 1, 5,
    [⟨5, false, 1634910149494702080000⟩, ⟨7, true, 23355859278495744000⟩, ⟨9, false, 159347967787008000⟩,
      ⟨11, true, 585838116864000⟩],
    [⟨1, true, 2791702617311305547141747079905280000000⟩, ⟨3, false, 712447975164513104747924438384640000000000⟩,
      ⟨5, false, 20588524241677223419730390610345984000000000⟩,
      ⟨7, true, 17478699475405280021796695563504189440000000000⟩,
      ⟨9, false, 1478667811037258186005036653635048570880000000000⟩,
      ⟨11, true, 26501395186962332760028253823288622448640000000000⟩]⟩,
  ⟨7, 0, 6,
    [⟨14, true, 195279372288000⟩, ⟨16, false, 28120229609472000⟩, ⟨18, true, 2868263420166144000⟩,
      ⟨20, false, 155705728523304960000⟩],
    [⟨14, true, 209313643473496325441157410747894653255680000000000⟩,
      ⟨16, false, 11836188172608423164827353583958328606720000000000⟩,
      ⟨18, true, 112846407837601938723169418546748850176000000000⟩,
      ⟨20, true, 322185173347638647960668198357539225600000000⟩,
      ⟨22, false, 6908588592806314788204861896785920000000000⟩,
      ⟨24, true, 5516541700143663846701882828390400000000⟩, ⟨26, true, 204560308377112343730241356693504000000⟩]⟩,
  ⟨6, 7, 0,
    [⟨0, true, 403291461126605635584000000⟩, ⟨2, true, 620448401733239439360000⟩,
      ⟨4, false, 6744004366665646080000⟩, ⟨6, false, 14597412049059840000⟩, ⟨8, true, 96035605585920000⟩,
      ⟨10, true, 313841848320000⟩, ⟨12, false, 1743565824000⟩],
    [⟨0, true, 1406150933894959189805168427270144000000⟩, ⟨2, true, 16388999332959470013841026318336000000000⟩,
      ⟨4, false, 9046727631793627447640246527721472000000000⟩,
      ⟨6, false, 166656029805301956044121539288550604800000000⟩,
      ⟨8, true, 63329291326014743296766184929649229824000000000⟩,
      ⟨10, true, 594205398139046345116838803405195444224000000000⟩,
      ⟨12, false, 142609295553371122828041312817246906613760000000000⟩]⟩,
  ⟨6, 6, 1,
    [⟨13, false, 249080832000⟩, ⟨17, true, 10670622842880000⟩, ⟨21, false, 613091306060513280000⟩,
      ⟨25, true, 31022420086661971968000000⟩],
    [⟨13, false, 998265068873597859796289189720728346296320000000000⟩,
      ⟨17, true, 587440251291163464527273276231701757952000000000⟩,
      ⟨21, false, 103482004659379948496521796073711206400000000⟩,
      ⟨25, true, 18607742127293658867744010080878592000000⟩]⟩,
  ⟨6, 5, 2,
    [⟨2, false, 2481793606932957757440000⟩, ⟨4, true, 4496002911110430720000⟩, ⟨6, true, 48658040163532800000⟩,
      ⟨8, false, 128047474114560000⟩, ⟨10, false, 836911595520000⟩, ⟨12, true, 3487131648000⟩],
    [⟨0, false, 65211923562791933928835337158656000000⟩, ⟨2, false, 67825442279896278762467076813619200000000⟩,
      ⟨4, true, 1949568912645252627643711576709529600000000⟩,
      ⟨6, true, 822235684143270184716200037558150758400000000⟩,
      ⟨8, false, 34514776973920992637505606227731677184000000000⟩,
      ⟨10, false, 4389452779801342355863099547735153442816000000000⟩,
      ⟨12, true, 193212593975535069637991456074979679928320000000000⟩]⟩,
  ⟨6, 4, 3,
    [⟨13, true, 597793996800⟩, ⟨15, false, 20922789888000⟩, ⟨17, false, 22763995398144000⟩,
      ⟨19, true, 2919482409811968000⟩, ⟨21, true, 817455074747351040000⟩, ⟨23, false, 206816133911079813120000⟩],
    [⟨13, true, 1352488157828745487465940192524857759498240000000000⟩,
      ⟨15, false, 28675202439226236525638414512715238211584000000000⟩,
      ⟨17, false, 439734545112387238321759266277089607680000000000⟩,
      ⟨19, true, 7314073236855833619859221264325410816000000000⟩,
      ⟨21, true, 41022298137747069016371304428522700800000000⟩,
      ⟨23, false, 771523374475162896722567713574092800000000⟩, ⟨25, false, 2204263851914220716324200919334912000000⟩]⟩,
  ⟨6, 3, 4,
    [⟨4, true, 17984011644441722880000⟩, ⟨6, false, 116779296392478720000⟩, ⟨10, true, 2678117105664000⟩,
      ⟨12, false, 8369115955200⟩],
    [⟨0, false, 307419222489323835380447997591552000000⟩, ⟨2, true, 25540951386027499832751364767744000000000⟩,
      ⟨4, true, 6187936723971166729148605224556953600000000⟩,
      ⟨6, false, 761779602114492249623043188365197312000000000⟩,
      ⟨8, false, 50754261421269481460143225854844993536000000000⟩,
      ⟨10, true, 8889121076999443307997870809005141524480000000000⟩,
      ⟨12, false, 217364168222476953342740388084352139919360000000000⟩]⟩,
  ⟨6, 2, 5,
    [⟨13, false, 1992646656000⟩, ⟨15, true, 167382319104000⟩, ⟨17, true, 45527990796288000⟩,
      ⟨19, false, 15570572852330496000⟩, ⟨21, true, 1634910149494702080000⟩],
    [⟨13, false, 1521549177557338673399182716590464979435520000000000⟩,
      ⟨15, true, 63867496341912981352558286869229394198528000000000⟩,
      ⟨17, false, 195343615232618177023704597134630191104000000000⟩,
      ⟨19, false, 8953434479599382534655253616674209792000000000⟩,
      ⟨21, true, 49929694389528256648657438699526553600000000⟩,
      ⟨23, true, 441011780196920579061464316877209600000000⟩, ⟨25, false, 3485630864640659863290796673335296000000⟩]⟩,
  ⟨6, 1, 6,
    [⟨6, false, 155705728523304960000⟩, ⟨8, true, 2048759585832960000⟩, ⟨10, false, 12051526975488000⟩,
      ⟨12, true, 27897053184000⟩],
    [⟨0, true, 150091242984850340451377932664832000000⟩, ⟨2, true, 29888350804826638284559342790246400000000⟩,
      ⟨4, false, 6544650032978687101492456002158592000000000⟩,
      ⟨6, false, 490324787988002639221799721675364761600000000⟩,
      ⟨8, true, 195907377469941750406168391065754664960000000000⟩,
      ⟨10, false, 13580468534887559210170332006857450717184000000000⟩,
      ⟨12, true, 209313643473496325441157410747894653255680000000000⟩]⟩,
  ⟨6, 0, 7,
    [⟨13, true, 15941173248000⟩, ⟨15, false, 2510734786560000⟩, ⟨17, true, 273167944777728000⟩,
      ⟨19, false, 15570572852330496000⟩],
    [⟨13, true, 1465195504314474278088101875235262572789760000000000⟩,
      ⟨15, false, 101666626829983929499990742363263117295616000000000⟩,
      ⟨17, true, 1363740852085724012179917519390102257664000000000⟩,
      ⟨19, true, 252209421960545986891697284976738304000000000⟩,
      ⟨21, false, 83665550076765620955031295111253196800000000⟩,
      ⟨23, true, 216385208940991678947484809088204800000000⟩, ⟨25, true, 2548953174899587191559099980447744000000⟩]⟩,
  ⟨5, 8, 0,
    [⟨14, false, 1743565824000⟩, ⟨16, false, 523069747200000⟩, ⟨18, true, 32011868528640000⟩,
      ⟨20, true, 34060628114472960000⟩, ⟨22, true, 2248001455555215360000⟩, ⟨24, false, 1861345205199718318080000⟩,
      ⟨26, false, 403291461126605635584000000⟩],
    [⟨14, false, 50603298422163946809950143257732773314560000000000⟩,
      ⟨16, false, 3795247381662296010746260744329957998592000000000⟩,
      ⟨18, false, 28814514352093750659260578701917552640000000000⟩,
      ⟨20, true, 655579654337968228672078498269600153600000000⟩,
      ⟨22, true, 7097158719148374819996534951011942400000000⟩,
      ⟨24, false, 51436442946936808748626050495283200000000⟩, ⟨26, false, 1340939010332167255876333090111488000000⟩]⟩,
  ⟨5, 7, 1,
    [⟨1, true, 31022420086661971968000000⟩, ⟨3, true, 103408066955539906560000⟩, ⟨5, false, 408727537373675520000⟩,
      ⟨7, false, 2432902008176640000⟩, ⟨9, true, 3556874280960000⟩, ⟨11, true, 52306974720000⟩],
    [⟨1, true, 18841167056914762538806851749806080000000⟩, ⟨3, true, 481089662034166513787170669461504000000000⟩,
      ⟨5, false, 102942621208386117098651953051729920000000000⟩,
      ⟨7, false, 5580447675273210208301341920083312640000000000⟩,
      ⟨9, true, 492889270345752728668345551211682856960000000000⟩,
      ⟨11, true, 26501395186962332760028253823288622448640000000000⟩]⟩,
  ⟨5, 6, 2,
    [⟨14, true, 3487131648000⟩, ⟨16, true, 836911595520000⟩, ⟨18, false, 128047474114560000⟩,
      ⟨20, false, 48658040163532800000⟩, ⟨22, true, 4496002911110430720000⟩, ⟨24, true, 2481793606932957757440000⟩],
    [⟨14, true, 193212593975535069637991456074979679928320000000000⟩,
      ⟨16, true, 4389452779801342355863099547735153442816000000000⟩,
      ⟨18, false, 34514776973920992637505606227731677184000000000⟩,
      ⟨20, false, 822235684143270184716200037558150758400000000⟩,
      ⟨22, true, 1949568912645252627643711576709529600000000⟩,
      ⟨24, true, 67825442279896278762467076813619200000000⟩, ⟨26, false, 65211923562791933928835337158656000000⟩]⟩,
  ⟨5, 5, 3,
    [⟨3, false, 206816133911079813120000⟩, ⟨7, true, 4865804016353280000⟩, ⟨11, false, 104613949440000⟩],
    [⟨3, false, 962179324068333027574341338923008000000000⟩,
      ⟨7, true, 11160895350546420416602683840166625280000000000⟩,
      ⟨11, false, 53002790373924665520056507646577244897280000000000⟩]⟩,
  ⟨5, 4, 4,
    [⟨14, false, 8369115955200⟩, ⟨16, false, 1339058552832000⟩, ⟨18, true, 409751917166592000⟩,
      ⟨20, true, 38926432130826240000⟩, ⟨22, false, 17984011644441722880000⟩],
    [⟨14, false, 386425187951070139275982912149959359856640000000000⟩,
      ⟨16, false, 1610104949796125580316595467291497332736000000000⟩,
      ⟨18, true, 92457006921066034724062204704413712384000000000⟩,
      ⟨20, true, 243307912950173775589637380801088716800000000⟩,
      ⟨22, false, 6931959157187402644557472275313459200000000⟩,
      ⟨24, false, 12557897023890222182169333832089600000000⟩, ⟨26, true, 319797674103895153000385781694464000000⟩]⟩,
  ⟨5, 3, 5,
    [⟨5, true, 1634910149494702080000⟩, ⟨7, false, 7785286426165248000⟩, ⟨9, false, 22763995398144000⟩,
      ⟨11, true, 251073478656000⟩],
    [⟨1, false, 4407951501017850863908021705113600000000⟩, ⟨3, true, 265265632368945443760046243577856000000000⟩,
      ⟨5, true, 96079779794493709292075156181614592000000000⟩,
      ⟨7, false, 7574661709379852895351971615248220160000000000⟩,
      ⟨9, false, 985778540691505457336691102423365713920000000000⟩,
      ⟨11, true, 81063091160120076677733482283000492195840000000000⟩]⟩,
  ⟨5, 2, 6,
    [⟨14, true, 27897053184000⟩, ⟨16, true, 1339058552832000⟩, ⟨18, false, 1229255751499776000⟩,
      ⟨20, true, 155705728523304960000⟩],
    [⟨14, true, 603789356173547092618723300234311499776000000000000⟩,
      ⟨16, false, 5467648058682676449825105441010709692416000000000⟩,
      ⟨18, false, 93882072576522845218623461585867243520000000000⟩,
      ⟨20, true, 648285362232246555521779410125665075200000000⟩,
      ⟨22, true, 4322751604854574834747525014591897600000000⟩,
      ⟨24, false, 28919909935151760511014191235072000000000⟩, ⟨26, false, 115484233683908983044452999233536000000⟩]⟩,
  ⟨5, 1, 7,
    [⟨7, false, 15570572852330496000⟩, ⟨9, true, 182111963185152000⟩, ⟨11, false, 836911595520000⟩],
    [⟨1, true, 1616248883706545316766274625208320000000⟩, ⟨3, true, 447182342795567660987878194806784000000000⟩,
      ⟨5, false, 75491255552816485872344765571268608000000000⟩,
      ⟨7, false, 9904037766025427126444723948255969280000000000⟩,
      ⟨9, true, 2464446351728763643341727756058414284800000000000⟩,
      ⟨11, false, 107564486347082409437761736106289114644480000000000⟩]⟩,
  ⟨5, 0, 8,
    [⟨14, false, 223176425472000⟩, ⟨16, true, 26781171056640000⟩, ⟨18, false, 1639007668666368000⟩],
    [⟨14, false, 813102999647043418059880710982206153031680000000000⟩,
      ⟨16, true, 17303836231291099614652459024969038299136000000000⟩,
      ⟨18, false, 18964335261079093504545956960881606656000000000⟩,
      ⟨20, false, 970470535579885203482447608483204300800000000⟩,
      ⟨22, true, 2585836987951739953457336882194022400000000⟩,
      ⟨24, true, 23403368235008096664312308406681600000000⟩, ⟨26, false, 89076074693203360685788357459968000000⟩]⟩,
  ⟨4, 9, 0,
    [⟨0, false, 403291461126605635584000000⟩, ⟨2, false, 3102242008666197196800000⟩,
      ⟨4, false, 6744004366665646080000⟩, ⟨6, true, 24329020081766400000⟩, ⟨8, true, 185668837466112000⟩,
      ⟨10, true, 188305108992000⟩, ⟨12, false, 3138418483200⟩],
    [⟨0, false, 1151565183353855970733617982734336000000⟩, ⟨2, false, 71656544588965526594138769299865600000000⟩,
      ⟨4, true, 4064337387251477430726485829117542400000000⟩,
      ⟨6, true, 745583800998398365170684196045612646400000000⟩,
      ⟨8, false, 5387061378869701210209586452967194624000000000⟩,
      ⟨10, false, 3373553228144263120663342883848851554304000000000⟩,
      ⟨12, false, 50603298422163946809950143257732773314560000000000⟩]⟩,
  ⟨4, 8, 1,
    [⟨13, false, 348713164800⟩, ⟨15, false, 20922789888000⟩, ⟨17, true, 12093372555264000⟩,
      ⟨19, true, 2919482409811968000⟩, ⟨21, false, 204363768686837760000⟩, ⟨23, false, 206816133911079813120000⟩,
      ⟨25, false, 31022420086661971968000000⟩],
    [⟨13, false, 354223088955147627669651002804129413201920000000000⟩,
      ⟨15, false, 28675202439226236525638414512715238211584000000000⟩,
      ⟨17, false, 147705706178776226205514009954612150272000000000⟩,
      ⟨19, true, 7314073236855833619859221264325410816000000000⟩,
      ⟨21, true, 62459706521632879480150491645188505600000000⟩,
      ⟨23, false, 771523374475162896722567713574092800000000⟩,
      ⟨25, false, 16403478275379438151419809161543680000000⟩]⟩,
  ⟨4, 7, 2,
    [⟨2, true, 2481793606932957757440000⟩, ⟨4, true, 13488008733331292160000⟩, ⟨6, false, 9731608032706560000⟩,
      ⟨8, false, 281704443052032000⟩, ⟨10, false, 502146957312000⟩, ⟨12, true, 4881984307200⟩],
    [⟨0, false, 254585750541103219071550444535808000000⟩, ⟨2, true, 55267545256006056580297742981529600000000⟩,
      ⟨4, true, 4982390244542150016913760698603929600000000⟩,
      ⟨6, false, 578927771193096409126562656757062041600000000⟩,
      ⟨8, false, 57942229947145042086556598476682035200000000000⟩,
      ⟨10, true, 2779347830005216775546504080443656110080000000000⟩,
      ⟨12, true, 193212593975535069637991456074979679928320000000000⟩]⟩,
  ⟨4, 6, 3,
    [⟨13, true, 597793996800⟩, ⟨15, true, 20922789888000⟩, ⟨17, false, 22763995398144000⟩,
      ⟨19, false, 2919482409811968000⟩, ⟨21, true, 817455074747351040000⟩, ⟨23, true, 206816133911079813120000⟩],
    [⟨13, true, 1352488157828745487465940192524857759498240000000000⟩,
      ⟨15, true, 28675202439226236525638414512715238211584000000000⟩,
      ⟨17, false, 439734545112387238321759266277089607680000000000⟩,
      ⟨19, false, 7314073236855833619859221264325410816000000000⟩,
      ⟨21, true, 41022298137747069016371304428522700800000000⟩,
      ⟨23, true, 771523374475162896722567713574092800000000⟩, ⟨25, false, 2204263851914220716324200919334912000000⟩]⟩,
  ⟨4, 5, 4,
    [⟨4, false, 17984011644441722880000⟩, ⟨6, false, 38926432130826240000⟩, ⟨8, true, 409751917166592000⟩,
      ⟨10, true, 1339058552832000⟩, ⟨12, false, 8369115955200⟩],
    [⟨0, true, 319797674103895153000385781694464000000⟩, ⟨2, true, 12557897023890222182169333832089600000000⟩,
      ⟨4, false, 6931959157187402644557472275313459200000000⟩,
      ⟨6, false, 243307912950173775589637380801088716800000000⟩,
      ⟨8, true, 92457006921066034724062204704413712384000000000⟩,
      ⟨10, true, 1610104949796125580316595467291497332736000000000⟩,
      ⟨12, false, 386425187951070139275982912149959359856640000000000⟩]⟩,
  ⟨4, 4, 5,
    [⟨13, false, 1195587993600⟩, ⟨17, true, 45527990796288000⟩, ⟨21, false, 1634910149494702080000⟩],
    [⟨13, false, 2704976315657490974931880385049715518996480000000000⟩,
      ⟨17, true, 879469090224774476643518532554179215360000000000⟩,
      ⟨21, false, 82044596275494138032742608857045401600000000⟩,
      ⟨25, true, 4408527703828441432648401838669824000000⟩]⟩,
  ⟨4, 3, 6,
    [⟨6, true, 155705728523304960000⟩, ⟨8, false, 409751917166592000⟩, ⟨10, false, 4017175658496000⟩,
      ⟨12, true, 16738231910400⟩],
    [⟨0, false, 12378451614571317619937784102912000000⟩, ⟨2, false, 38098848409917722014920698599833600000000⟩,
      ⟨4, true, 744022433216235915408867050756505600000000⟩,
      ⟨6, true, 1005087515064666025212680569166286028800000000⟩,
      ⟨8, false, 41702745499796553263918978849568718848000000000⟩,
      ⟨10, false, 10499226026795568888314466276296638857216000000000⟩,
      ⟨12, true, 603789356173547092618723300234311499776000000000000⟩]⟩,
  ⟨4, 2, 7,
    [⟨13, true, 3188234649600⟩, ⟨15, false, 167382319104000⟩, ⟨17, false, 91055981592576000⟩,
      ⟨19, true, 15570572852330496000⟩],
    [⟨13, true, 4226525493214829648331063101640180498432000000000000⟩,
      ⟨15, false, 63867496341912981352558286869229394198528000000000⟩,
      ⟨17, false, 684125474992156299619813935419549024256000000000⟩,
      ⟨19, true, 8953434479599382534655253616674209792000000000⟩,
      ⟨21, true, 32114901885965881384085170157518848000000000⟩,
      ⟨23, false, 441011780196920579061464316877209600000000⟩, ⟨25, false, 922896839187781569357605165334528000000⟩]⟩,
  ⟨4, 1, 8,
    [⟨8, false, 1639007668666368000⟩, ⟨10, true, 16068702633984000⟩, ⟨12, false, 44635285094400⟩],
    [⟨0, false, 137712791370279022831440148561920000000⟩, ⟨2, true, 8210497605091083730361355809587200000000⟩,
      ⟨4, true, 5800627599762451186083588951402086400000000⟩,
      ⟨6, false, 514762727076663385990880847490921267200000000⟩,
      ⟨8, false, 154204631970145197142249412216185946112000000000⟩,
      ⟨10, true, 24079694561683128098484798283154089574400000000000⟩,
      ⟨12, false, 813102999647043418059880710982206153031680000000000⟩]⟩,
  ⟨4, 0, 9,
    [⟨13, false, 19129407897600⟩, ⟨15, true, 2678117105664000⟩, ⟨17, false, 182111963185152000⟩],
    [⟨13, false, 5691720997529303926419164976875443071221760000000000⟩,
      ⟨15, true, 165534123171896910852549029232492511494144000000000⟩,
      ⟨17, false, 679615377093567712560103583970553233408000000000⟩,
      ⟨19, false, 9205643901559928521546950901650948096000000000⟩,
      ⟨21, true, 51550648190799739570946124953734348800000000⟩,
      ⟨23, true, 224626571255928900113979507789004800000000⟩, ⟨25, false, 1626056335711805622201494815113216000000⟩]⟩,
  ⟨3, 10, 0,
    [⟨14, false, 3138418483200⟩, ⟨16, false, 1318135762944000⟩, ⟨18, false, 160059342643200000⟩,
      ⟨20, true, 34060628114472960000⟩, ⟨22, true, 20232013099996938240000⟩, ⟨24, true, 4343138812132676075520000⟩,
      ⟨26, true, 403291461126605635584000000⟩],
    [⟨14, true, 26451724175222063105201211248360313323520000000000⟩,
      ⟨16, false, 704420915535804941388510516940030083072000000000⟩,
      ⟨18, false, 56454524043096723438388253380659118080000000000⟩,
      ⟨20, false, 716035736366746163765235347462553600000000000⟩,
      ⟨22, true, 1040346917468044536795781850254540800000000⟩,
      ⟨24, true, 93720933840805587678341762541158400000000⟩, ⟨26, true, 968307864280051486567049755361280000000⟩]⟩,
  ⟨3, 9, 1,
    [⟨1, false, 31022420086661971968000000⟩, ⟨3, false, 310224200866619719680000⟩,
      ⟨5, false, 1226182612121026560000⟩, ⟨7, false, 486580401635328000⟩, ⟨9, true, 19207121117184000⟩,
      ⟨11, true, 94152554496000⟩],
    [⟨1, false, 14433215555896911674898830044692480000000⟩, ⟨3, false, 1178003353733554097601465764806656000000000⟩,
      ⟨5, true, 6862841413892407806576796870115328000000000⟩,
      ⟨7, true, 9166681316439777729552054145001717760000000000⟩,
      ⟨9, true, 492889270345752728668345551211682856960000000000⟩,
      ⟨11, true, 1558905599233078397648720813134624849920000000000⟩]⟩,
  ⟨3, 8, 2,
    [⟨14, true, 4881984307200⟩, ⟨16, true, 1841205510144000⟩, ⟨18, true, 128047474114560000⟩,
      ⟨20, false, 68121256228945920000⟩, ⟨22, false, 22480014555552153600000⟩,
      ⟨24, false, 2481793606932957757440000⟩],
    [⟨14, true, 24151574246941883704748932009372459991040000000000⟩,
      ⟨16, true, 4499668297198100952134771261269988081664000000000⟩,
      ⟨18, true, 85269038395190474097648832082576670720000000000⟩,
      ⟨20, true, 60456082028777935093156849192953446400000000⟩,
      ⟨22, false, 8137505636616419356792316801266483200000000⟩,
      ⟨24, false, 42284490893868778929715712045875200000000⟩, ⟨26, true, 372631146052115769309283334750208000000⟩]⟩,
  ⟨3, 7, 3,
    [⟨3, true, 206816133911079813120000⟩, ⟨5, true, 1634910149494702080000⟩, ⟨7, true, 2919482409811968000⟩,
      ⟨9, false, 22763995398144000⟩, ⟨11, false, 146459529216000⟩],
    [⟨1, false, 4407951501017850863908021705113600000000⟩, ⟨3, true, 696913691699387583814295095345152000000000⟩,
      ⟨5, true, 96079779794493709292075156181614592000000000⟩,
      ⟨7, false, 3586233641166567521250712224918405120000000000⟩,
      ⟨9, false, 985778540691505457336691102423365713920000000000⟩,
      ⟨11, false, 28060300786195411157676974636423247298560000000000⟩]⟩,
  ⟨3, 6, 4,
    [⟨14, false, 8369115955200⟩, ⟨16, false, 2678117105664000⟩, ⟨20, true, 116779296392478720000⟩,
      ⟨22, true, 17984011644441722880000⟩],
    [⟨14, false, 217364168222476953342740388084352139919360000000000⟩,
      ⟨16, false, 8889121076999443307997870809005141524480000000000⟩,
      ⟨18, false, 50754261421269481460143225854844993536000000000⟩,
      ⟨20, true, 761779602114492249623043188365197312000000000⟩,
      ⟨22, true, 6187936723971166729148605224556953600000000⟩,
      ⟨24, false, 25540951386027499832751364767744000000000⟩, ⟨26, false, 307419222489323835380447997591552000000⟩]⟩,
  ⟨3, 5, 5,
    [⟨5, false, 1634910149494702080000⟩, ⟨7, false, 7785286426165248000⟩, ⟨9, true, 22763995398144000⟩,
      ⟨11, true, 251073478656000⟩],
    [⟨1, true, 4407951501017850863908021705113600000000⟩, ⟨3, true, 265265632368945443760046243577856000000000⟩,
      ⟨5, false, 96079779794493709292075156181614592000000000⟩,
      ⟨7, false, 7574661709379852895351971615248220160000000000⟩,
      ⟨9, true, 985778540691505457336691102423365713920000000000⟩,
      ⟨11, true, 81063091160120076677733482283000492195840000000000⟩]⟩,
  ⟨3, 4, 6,
    [⟨14, true, 16738231910400⟩, ⟨16, true, 4017175658496000⟩, ⟨18, false, 409751917166592000⟩,
      ⟨20, false, 155705728523304960000⟩],
    [⟨14, true, 603789356173547092618723300234311499776000000000000⟩,
      ⟨16, true, 10499226026795568888314466276296638857216000000000⟩,
      ⟨18, false, 41702745499796553263918978849568718848000000000⟩,
      ⟨20, false, 1005087515064666025212680569166286028800000000⟩,
      ⟨22, true, 744022433216235915408867050756505600000000⟩, ⟨24, true, 38098848409917722014920698599833600000000⟩,
      ⟨26, false, 12378451614571317619937784102912000000⟩]⟩,
  ⟨3, 3, 7,
    [⟨7, true, 15570572852330496000⟩, ⟨11, false, 502146957312000⟩],
    [⟨3, false, 530531264737890887520092487155712000000000⟩,
      ⟨7, true, 15149323418759705790703943230496440320000000000⟩,
      ⟨11, false, 162126182320240153355466964566000984391680000000000⟩]⟩,
  ⟨3, 2, 8,
    [⟨14, false, 44635285094400⟩, ⟨16, false, 5356234211328000⟩, ⟨18, true, 1639007668666368000⟩],
    [⟨14, false, 1207578712347094185237446600468622999552000000000000⟩,
      ⟨16, false, 5031577968112892438489360835285929164800000000000⟩,
      ⟨18, true, 135584818076319398482542440435435962368000000000⟩,
      ⟨20, true, 356802152832419469690901159040620953600000000⟩,
      ⟨22, false, 5066774038070810750156392065348403200000000⟩,
      ⟨24, false, 9178938474765961503906507364761600000000⟩, ⟨26, true, 127862685298480300664390783336448000000⟩]⟩,
  ⟨3, 1, 9,
    [⟨9, false, 182111963185152000⟩, ⟨11, true, 1339058552832000⟩],
    [⟨1, false, 1616248883706545316766274625208320000000⟩, ⟨3, true, 83348921942323226532214292348928000000000⟩,
      ⟨5, true, 75491255552816485872344765571268608000000000⟩,
      ⟨7, false, 5245285652734278664259219282240471040000000000⟩,
      ⟨9, false, 2464446351728763643341727756058414284800000000000⟩,
      ⟨11, true, 269690668667322562793228700672290099036160000000000⟩]⟩,
  ⟨3, 0, 10,
    [⟨14, true, 267811710566400⟩, ⟨16, false, 21424936845312000⟩],
    [⟨14, true, 2020681711994137603297327311450829152583680000000000⟩,
      ⟨16, false, 12272258263178207176163098189683109134336000000000⟩,
      ⟨18, false, 116620482815240304977996483474554355712000000000⟩,
      ⟨20, true, 613668382747465733791546449442583347200000000⟩,
      ⟨22, true, 2480937050119070796699055183154380800000000⟩,
      ⟨24, false, 14224429760242135160405801041920000000000⟩, ⟨26, false, 38786610605276939978602425876480000000⟩]⟩,
  ⟨2, 11, 0,
    [⟨0, true, 403291461126605635584000000⟩, ⟨2, true, 5584035615599154954240000⟩,
      ⟨4, true, 38216024744438661120000⟩, ⟨6, true, 160571532539658240000⟩, ⟨8, true, 352130553815040000⟩,
      ⟨10, false, 690452066304000⟩, ⟨12, false, 11507534438400⟩],
    [⟨0, true, 692665992392766581706134755737600000000⟩, ⟨2, true, 85446282885929600481252987214233600000000⟩,
      ⟨4, true, 3527260409623500395997222130207948800000000⟩,
      ⟨6, false, 432918297009074443185830061875920896000000000⟩,
      ⟨8, false, 51130102912818530381785755142261309440000000000⟩,
      ⟨10, false, 924851950329322133931853944009699360768000000000⟩,
      ⟨12, true, 26451724175222063105201211248360313323520000000000⟩]⟩,
  ⟨2, 10, 1,
    [⟨13, false, 1046139494400⟩, ⟨15, false, 125536739328000⟩, ⟨17, true, 10670622842880000⟩,
      ⟨19, true, 9731608032706560000⟩, ⟨21, true, 2656728992928890880000⟩, ⟨23, true, 413632267822159626240000⟩,
      ⟨25, true, 31022420086661971968000000⟩],
    [⟨13, true, 185162069226554441736408478738522193264640000000000⟩,
      ⟨15, false, 6517091463460508301281457843798917775360000000000⟩,
      ⟨17, false, 487372454166229189139949853457107648512000000000⟩,
      ⟨19, false, 5674711994112284705063188911976611840000000000⟩,
      ⟨21, true, 28492286005642446184878251482860748800000000⟩,
      ⟨23, true, 1102034968753405214383671110270976000000000⟩, ⟨25, true, 10713583558824557571804811568873472000000⟩]⟩,
  ⟨2, 9, 2,
    [⟨2, false, 2481793606932957757440000⟩, ⟨4, false, 31472020377773015040000⟩, ⟨6, false, 184900552621424640000⟩,
      ⟨8, false, 537799391281152000⟩, ⟨10, true, 502146957312000⟩, ⟨12, true, 14645952921600⟩],
    [⟨0, true, 458899190961089389027483226996736000000⟩, ⟨2, false, 13789738296964073887114217914368000000000⟩,
      ⟨4, false, 7591597796874977826723707959325491200000000⟩,
      ⟨6, false, 312665503989323921984854134169691750400000000⟩,
      ⟨8, true, 56517164291688231591995341595228504064000000000⟩,
      ⟨10, true, 4298405178473585254595196827858550915072000000000⟩,
      ⟨12, true, 24151574246941883704748932009372459991040000000000⟩]⟩,
  ⟨2, 8, 3,
    [⟨13, true, 1394852659200⟩, ⟨15, true, 146459529216000⟩, ⟨17, false, 22763995398144000⟩,
      ⟨19, false, 12651090442518528000⟩, ⟨21, false, 2452365224242053120000⟩, ⟨23, false, 206816133911079813120000⟩],
    [⟨13, true, 169061019728593185933242524065607219937280000000000⟩,
      ⟨15, true, 35192293902686744826919872356514155986944000000000⟩,
      ⟨17, true, 635078160345005415345463863411719798784000000000⟩,
      ⟨19, false, 1639361242743548914796032352348798976000000000⟩,
      ⟨21, false, 90951992527275325665028743128049254400000000⟩,
      ⟨23, false, 330511594278242317661103396696883200000000⟩, ⟨25, true, 5689894716554880579614997592670208000000⟩]⟩,
  ⟨2, 7, 4,
    [⟨4, true, 17984011644441722880000⟩, ⟨6, true, 194632160654131200000⟩, ⟨8, true, 819503834333184000⟩,
      ⟨12, false, 19527937228800⟩],
    [⟨0, false, 204313440419986169955932782460928000000⟩, ⟨2, false, 41477806959041982693183525067161600000000⟩,
      ⟨4, true, 2609207552332827809809947260721561600000000⟩,
      ⟨6, true, 891593275182420331111416790926753792000000000⟩,
      ⟨8, true, 1425065655456810494561256881453531136000000000⟩,
      ⟨10, false, 7077753008478802030141700908302207025152000000000⟩,
      ⟨12, false, 217364168222476953342740388084352139919360000000000⟩]⟩,
  ⟨2, 6, 5,
    [⟨13, false, 1992646656000⟩, ⟨15, false, 167382319104000⟩, ⟨17, true, 45527990796288000⟩,
      ⟨19, true, 15570572852330496000⟩, ⟨21, true, 1634910149494702080000⟩],
    [⟨13, false, 1521549177557338673399182716590464979435520000000000⟩,
      ⟨15, false, 63867496341912981352558286869229394198528000000000⟩,
      ⟨17, false, 195343615232618177023704597134630191104000000000⟩,
      ⟨19, true, 8953434479599382534655253616674209792000000000⟩,
      ⟨21, true, 49929694389528256648657438699526553600000000⟩,
      ⟨23, false, 441011780196920579061464316877209600000000⟩, ⟨25, false, 3485630864640659863290796673335296000000⟩]⟩,
  ⟨2, 5, 6,
    [⟨6, false, 155705728523304960000⟩, ⟨8, false, 1229255751499776000⟩, ⟨10, false, 1339058552832000⟩,
      ⟨12, true, 27897053184000⟩],
    [⟨0, false, 115484233683908983044452999233536000000⟩, ⟨2, true, 28919909935151760511014191235072000000000⟩,
      ⟨4, true, 4322751604854574834747525014591897600000000⟩,
      ⟨6, false, 648285362232246555521779410125665075200000000⟩,
      ⟨8, false, 93882072576522845218623461585867243520000000000⟩,
      ⟨10, true, 5467648058682676449825105441010709692416000000000⟩,
      ⟨12, true, 603789356173547092618723300234311499776000000000000⟩]⟩,
  ⟨2, 4, 7,
    [⟨13, true, 3188234649600⟩, ⟨15, true, 167382319104000⟩, ⟨17, false, 91055981592576000⟩,
      ⟨19, false, 15570572852330496000⟩],
    [⟨13, true, 4226525493214829648331063101640180498432000000000000⟩,
      ⟨15, true, 63867496341912981352558286869229394198528000000000⟩,
      ⟨17, false, 684125474992156299619813935419549024256000000000⟩,
      ⟨19, false, 8953434479599382534655253616674209792000000000⟩,
      ⟨21, true, 32114901885965881384085170157518848000000000⟩,
      ⟨23, true, 441011780196920579061464316877209600000000⟩, ⟨25, false, 922896839187781569357605165334528000000⟩]⟩,
  ⟨2, 3, 8,
    [⟨8, true, 1639007668666368000⟩, ⟨10, true, 5356234211328000⟩, ⟨12, false, 44635285094400⟩],
    [⟨0, true, 127862685298480300664390783336448000000⟩, ⟨2, true, 9178938474765961503906507364761600000000⟩,
      ⟨4, false, 5066774038070810750156392065348403200000000⟩,
      ⟨6, false, 356802152832419469690901159040620953600000000⟩,
      ⟨8, true, 135584818076319398482542440435435962368000000000⟩,
      ⟨10, true, 5031577968112892438489360835285929164800000000000⟩,
      ⟨12, false, 1207578712347094185237446600468622999552000000000000⟩]⟩,
  ⟨2, 2, 9,
    [⟨13, false, 6376469299200⟩, ⟨17, true, 182111963185152000⟩],
    [⟨13, false, 8453050986429659296662126203280360996864000000000000⟩,
      ⟨17, true, 1368250949984312599239627870839098048512000000000⟩,
      ⟨21, false, 64229803771931762768170340315037696000000000⟩,
      ⟨25, true, 1845793678375563138715210330669056000000⟩]⟩,
  ⟨2, 1, 10,
    [⟨10, false, 21424936845312000⟩, ⟨12, true, 89270570188800⟩],
    [⟨0, true, 9850106071798722167049365225472000000⟩, ⟨2, false, 17389436079857045234267863174348800000000⟩,
      ⟨4, false, 733853561691640435927196886053683200000000⟩,
      ⟨6, true, 871564879909082855681782006531542220800000000⟩,
      ⟨8, true, 18619813893825798659706971780749983744000000000⟩,
      ⟨10, false, 29111272529796020536974159118440018739200000000000⟩,
      ⟨12, true, 2020681711994137603297327311450829152583680000000000⟩]⟩,
  ⟨2, 0, 11,
    [⟨13, true, 25505877196800⟩, ⟨15, false, 2678117105664000⟩],
    [⟨13, true, 14144771983958963223081291180155804068085760000000000⟩,
      ⟨15, false, 165534123171896910852549029232492511494144000000000⟩,
      ⟨17, false, 688635572890744886679524286868544815104000000000⟩,
      ⟨19, true, 9205643901559928521546950901650948096000000000⟩,
      ⟨21, true, 12679155581132023197224215361303347200000000⟩,
      ⟨23, false, 224626571255928900113979507789004800000000⟩, ⟨25, false, 219737342663757516513715515555840000000⟩]⟩,
  ⟨1, 12, 0,
    [⟨14, false, 11507534438400⟩, ⟨16, false, 6214068596736000⟩, ⟨18, false, 1760652769075200000⟩,
      ⟨20, false, 374666909259202560000⟩, ⟨22, false, 60696039299990814720000⟩,
      ⟨24, false, 6824932419065633832960000⟩, ⟨26, false, 403291461126605635584000000⟩],
    [⟨14, true, 5750374820700448501130698097469633331200000000000⟩,
      ⟨16, true, 512741754845789991350820580357708972032000000000⟩,
      ⟨18, false, 3429553610385071409988079747673882624000000000⟩,
      ⟨20, false, 475612571706970789986450713385055027200000000⟩,
      ⟨22, false, 8821139245076943521244247873919385600000000⟩,
      ⟨24, false, 80576122543820228490746767029043200000000⟩, ⟨26, false, 438348738723462222328696355684352000000⟩]⟩,
  ⟨1, 11, 1,
    [⟨1, true, 31022420086661971968000000⟩, ⟨3, true, 517040334777699532800000⟩, ⟨5, true, 4496002911110430720000⟩,
      ⟨7, true, 26761922089943040000⟩, ⟨9, true, 117376851271680000⟩, ⟨11, true, 345226033152000⟩],
    [⟨1, true, 7233561437567755263849061259673600000000⟩, ⟨3, true, 1162469070268428576667836421767168000000000⟩,
      ⟨5, true, 109805462622278524905228749921845248000000000⟩,
      ⟨7, true, 4725784517798934770993929193584066560000000000⟩,
      ⟨11, false, 3117811198466156795297441626269249699840000000000⟩]⟩,
  ⟨1, 10, 2,
    [⟨14, true, 14645952921600⟩, ⟨16, true, 7532204359680000⟩, ⟨18, true, 1920712111718400000⟩,
      ⟨20, true, 340606281144729600000⟩, ⟨22, true, 40464026199993876480000⟩, ⟨24, true, 2481793606932957757440000⟩],
    [⟨14, false, 32202098995922511606331909345829946654720000000000⟩,
      ⟨16, true, 191679160690014950037689936582321111040000000000⟩,
      ⟨18, true, 59884077653481794848376333128333000704000000000⟩,
      ⟨20, true, 1191648308073716953751686060847608627200000000⟩,
      ⟨22, true, 7780792327608898984448466023664844800000000⟩,
      ⟨24, false, 13144811296985359187594995512115200000000⟩, ⟨26, false, 529959125556589264238353399676928000000⟩]⟩,
  ⟨1, 9, 3,
    [⟨3, false, 206816133911079813120000⟩, ⟨5, false, 3269820298989404160000⟩, ⟨7, false, 26275341688307712000⟩,
      ⟨9, false, 136583972388864000⟩, ⟨11, false, 439378587648000⟩],
    [⟨1, true, 7199654118329156411049768785018880000000⟩, ⟨3, true, 15534283465125520933629343039488000000000⟩,
      ⟨5, false, 116668304036170932711805546791960576000000000⟩,
      ⟨7, false, 13892465834238712500545983338585784320000000000⟩,
      ⟨9, false, 492889270345752728668345551211682856960000000000⟩,
      ⟨11, true, 1558905599233078397648720813134624849920000000000⟩]⟩,
  ⟨1, 8, 4,
    [⟨14, false, 19527937228800⟩, ⟨16, false, 9373409869824000⟩, ⟨18, false, 2048759585832960000⟩,
      ⟨20, false, 272485024915783680000⟩, ⟨22, false, 17984011644441722880000⟩],
    [⟨14, true, 8050524748980627901582977336457486663680000000000⟩,
      ⟨16, false, 4691347457888115902172461197852309192704000000000⟩,
      ⟨18, false, 145153116048672268946025165210909671424000000000⟩,
      ⟨20, false, 1252104390102494888844842910040562073600000000⟩,
      ⟨22, true, 356713309007520372343850777601638400000000⟩, ⟨24, true, 55429302190854138117310707557990400000000⟩,
      ⟨26, true, 157327979504473494929070064926720000000⟩]⟩,
  ⟨1, 7, 5,
    [⟨5, true, 1634910149494702080000⟩, ⟨7, true, 23355859278495744000⟩, ⟨9, true, 159347967787008000⟩,
      ⟨11, true, 585838116864000⟩],
    [⟨1, false, 2791702617311305547141747079905280000000⟩, ⟨3, false, 712447975164513104747924438384640000000000⟩,
      ⟨5, true, 20588524241677223419730390610345984000000000⟩,
      ⟨7, true, 17478699475405280021796695563504189440000000000⟩,
      ⟨9, true, 1478667811037258186005036653635048570880000000000⟩,
      ⟨11, true, 26501395186962332760028253823288622448640000000000⟩]⟩,
  ⟨1, 6, 6,
    [⟨14, true, 27897053184000⟩, ⟨16, true, 12051526975488000⟩, ⟨18, true, 2048759585832960000⟩,
      ⟨20, true, 155705728523304960000⟩],
    [⟨14, true, 209313643473496325441157410747894653255680000000000⟩,
      ⟨16, true, 13580468534887559210170332006857450717184000000000⟩,
      ⟨18, true, 195907377469941750406168391065754664960000000000⟩,
      ⟨20, true, 490324787988002639221799721675364761600000000⟩,
      ⟨22, false, 6544650032978687101492456002158592000000000⟩,
      ⟨24, false, 29888350804826638284559342790246400000000⟩, ⟨26, true, 150091242984850340451377932664832000000⟩]⟩,
  ⟨1, 5, 7,
    [⟨7, false, 15570572852330496000⟩, ⟨9, false, 182111963185152000⟩, ⟨11, false, 836911595520000⟩],
    [⟨1, false, 1616248883706545316766274625208320000000⟩, ⟨3, true, 447182342795567660987878194806784000000000⟩,
      ⟨5, true, 75491255552816485872344765571268608000000000⟩,
      ⟨7, false, 9904037766025427126444723948255969280000000000⟩,
      ⟨9, false, 2464446351728763643341727756058414284800000000000⟩,
      ⟨11, false, 107564486347082409437761736106289114644480000000000⟩]⟩,
  ⟨1, 4, 8,
    [⟨14, false, 44635285094400⟩, ⟨16, false, 16068702633984000⟩, ⟨18, false, 1639007668666368000⟩],
    [⟨14, false, 813102999647043418059880710982206153031680000000000⟩,
      ⟨16, false, 24079694561683128098484798283154089574400000000000⟩,
      ⟨18, false, 154204631970145197142249412216185946112000000000⟩,
      ⟨20, true, 514762727076663385990880847490921267200000000⟩,
      ⟨22, true, 5800627599762451186083588951402086400000000⟩,
      ⟨24, false, 8210497605091083730361355809587200000000⟩, ⟨26, false, 137712791370279022831440148561920000000⟩]⟩,
  ⟨1, 3, 9,
    [⟨9, true, 182111963185152000⟩, ⟨11, true, 1339058552832000⟩],
    [⟨1, true, 1616248883706545316766274625208320000000⟩, ⟨3, true, 83348921942323226532214292348928000000000⟩,
      ⟨5, false, 75491255552816485872344765571268608000000000⟩,
      ⟨7, false, 5245285652734278664259219282240471040000000000⟩,
      ⟨9, true, 2464446351728763643341727756058414284800000000000⟩,
      ⟨11, true, 269690668667322562793228700672290099036160000000000⟩]⟩,
  ⟨1, 2, 10,
    [⟨14, true, 89270570188800⟩, ⟨16, true, 21424936845312000⟩],
    [⟨14, true, 2020681711994137603297327311450829152583680000000000⟩,
      ⟨16, true, 29111272529796020536974159118440018739200000000000⟩,
      ⟨18, true, 18619813893825798659706971780749983744000000000⟩,
      ⟨20, false, 871564879909082855681782006531542220800000000⟩,
      ⟨22, false, 733853561691640435927196886053683200000000⟩,
      ⟨24, true, 17389436079857045234267863174348800000000⟩, ⟨26, true, 9850106071798722167049365225472000000⟩]⟩,
  ⟨1, 1, 11,
    [⟨11, false, 2678117105664000⟩],
    [⟨3, false, 166697843884646453064428584697856000000000⟩,
      ⟨7, true, 10490571305468557328518438564480942080000000000⟩,
      ⟨11, false, 539381337334645125586457401344580198072320000000000⟩]⟩,
  ⟨1, 0, 12,
    [⟨14, false, 357082280755200⟩],
    [⟨14, false, 4041363423988275206594654622901658305167360000000000⟩,
      ⟨16, false, 16839014266617813360811060928756909604864000000000⟩,
      ⟨18, true, 98000668921414506318289511693804371968000000000⟩,
      ⟨20, true, 257896497161617121890235557088958873600000000⟩,
      ⟨22, false, 1747083488427430360771858297100697600000000⟩,
      ⟨24, false, 3165006319614910073862062132428800000000⟩, ⟨26, true, 28936504533478217811553060651008000000⟩]⟩,
  ⟨0, 13, 0,
    [⟨0, false, 403291461126605635584000000⟩, ⟨2, false, 8065829222532112711680000⟩,
      ⟨4, false, 87672056766653399040000⟩, ⟨6, false, 695809974338519040000⟩, ⟨8, false, 4577697199595520000⟩,
      ⟨10, false, 26927630585856000⟩, ⟨12, false, 149597947699200⟩],
    [⟨0, false, 234013669388803366452960102973440000000⟩, ⟨2, false, 52241672523708027828481797233049600000000⟩,
      ⟨4, false, 6819477166024991244326015453469081600000000⟩,
      ⟨6, false, 449155308815031161949772664862985420800000000⟩,
      ⟨8, false, 6624206288551987243949578690712567808000000000⟩,
      ⟨10, true, 464821964673286253841398096212128694272000000000⟩,
      ⟨12, true, 5750374820700448501130698097469633331200000000000⟩]⟩,
  ⟨0, 12, 1,
    [⟨13, false, 11507534438400⟩, ⟨15, false, 2071356198912000⟩, ⟨17, false, 352130553815040000⟩,
      ⟨19, false, 53523844179886080000⟩, ⟨21, false, 6744004366665646080000⟩, ⟨23, false, 620448401733239439360000⟩,
      ⟨25, false, 31022420086661971968000000⟩],
    [⟨13, true, 40252623744903139507914886682287433318400000000000⟩,
      ⟨15, true, 3910254878076304980768874706279350665216000000000⟩,
      ⟨17, false, 45946622341871230670799205386644619264000000000⟩,
      ⟨19, false, 4665874306270100757496399772069658624000000000⟩,
      ⟨21, false, 85708422845680407543533138199183360000000000⟩,
      ⟨23, false, 775149573893735274035825381002444800000000⟩, ⟨25, false, 4087011152528604320458117283315712000000⟩]⟩,
  ⟨0, 11, 2,
    [⟨2, true, 2481793606932957757440000⟩, ⟨4, true, 49456032022214737920000⟩, ⟨6, true, 535238441798860800000⟩,
      ⟨8, true, 4225566645780480000⟩, ⟨10, true, 27618082652160000⟩, ⟨12, true, 161105482137600⟩],
    [⟨0, false, 458652323003963215253174652764160000000⟩, ⟨2, false, 33204610362221572652771189981184000000000⟩,
      ⟨4, true, 3292216756401490848328793323261132800000000⟩,
      ⟨6, true, 882073605824105605135602726738906316800000000⟩,
      ⟨8, true, 57754309201370517625735333832973877248000000000⟩,
      ⟨10, true, 460029985656035880090455847797570666496000000000⟩,
      ⟨12, false, 32202098995922511606331909345829946654720000000000⟩]⟩,
  ⟨0, 10, 3,
    [⟨13, true, 12553673932800⟩, ⟨15, true, 2196892938240000⟩, ⟨17, true, 341459930972160000⟩,
      ⟨19, true, 43792236147179520000⟩, ⟨21, true, 4087275373736755200000⟩, ⟨23, true, 206816133911079813120000⟩],
    [⟨13, false, 225414692971457581244323365420809626583040000000000⟩,
      ⟨15, true, 2606836585384203320512583137519567110144000000000⟩,
      ⟨17, true, 533319076508100419810749058843752267776000000000⟩,
      ⟨19, true, 10340586300382385462559588684046270464000000000⟩,
      ⟨21, true, 57216136840037961358654886716322611200000000⟩,
      ⟨23, false, 326885394859669940347845729268531200000000⟩, ⟨25, false, 6626572406295953251346694285557760000000⟩]⟩,
  ⟨0, 9, 4,
    [⟨4, false, 17984011644441722880000⟩, ⟨6, false, 350337889177436160000⟩, ⟨8, false, 3687767254499328000⟩,
      ⟨10, false, 28120229609472000⟩, ⟨12, false, 175751435059200⟩],
    [⟨0, false, 246867957126173774308574232576000000⟩, ⟨2, true, 46994348659185646539885407895552000000000⟩,
      ⟨4, true, 4299381040473486978394914636064358400000000⟩,
      ⟨6, false, 569408101834781683150748592569214566400000000⟩,
      ⟨8, false, 114271473493058749217730675428202381312000000000⟩,
      ⟨10, false, 4758435164129621134685652675656121581568000000000⟩,
      ⟨12, true, 8050524748980627901582977336457486663680000000000⟩]⟩,
  ⟨0, 8, 5,
    [⟨13, false, 13948526592000⟩, ⟨15, false, 2343352467456000⟩, ⟨17, false, 318695935574016000⟩,
      ⟨19, false, 31141145704660992000⟩, ⟨21, false, 1634910149494702080000⟩],
    [⟨13, true, 56353673242864395311080841355202406645760000000000⟩,
      ⟨15, false, 37799130488070948147432455494033723097088000000000⟩,
      ⟨17, false, 1168397236853105835156212922255472066560000000000⟩,
      ⟨19, false, 8701225057638836547763556331697471488000000000⟩,
      ⟨21, true, 33735855687237364306373856411726643200000000⟩,
      ⟨23, true, 657396989137912258008949125965414400000000⟩, ⟨25, true, 936677689741072671731696692887552000000⟩]⟩,
  ⟨0, 7, 6,
    [⟨6, true, 155705728523304960000⟩, ⟨8, true, 2868263420166144000⟩, ⟨10, true, 28120229609472000⟩,
      ⟨12, true, 195279372288000⟩],
    [⟨0, true, 204560308377112343730241356693504000000⟩, ⟨2, false, 5516541700143663846701882828390400000000⟩,
      ⟨4, false, 6908588592806314788204861896785920000000000⟩,
      ⟨6, false, 322185173347638647960668198357539225600000000⟩,
      ⟨8, true, 112846407837601938723169418546748850176000000000⟩,
      ⟨10, true, 11836188172608423164827353583958328606720000000000⟩,
      ⟨12, true, 209313643473496325441157410747894653255680000000000⟩]⟩,
  ⟨0, 6, 7,
    [⟨13, true, 15941173248000⟩, ⟨15, true, 2510734786560000⟩, ⟨17, true, 273167944777728000⟩,
      ⟨19, true, 15570572852330496000⟩],
    [⟨13, true, 1465195504314474278088101875235262572789760000000000⟩,
      ⟨15, true, 101666626829983929499990742363263117295616000000000⟩,
      ⟨17, true, 1363740852085724012179917519390102257664000000000⟩,
      ⟨19, false, 252209421960545986891697284976738304000000000⟩,
      ⟨21, false, 83665550076765620955031295111253196800000000⟩,
      ⟨23, false, 216385208940991678947484809088204800000000⟩, ⟨25, true, 2548953174899587191559099980447744000000⟩]⟩,
  ⟨0, 5, 8,
    [⟨8, false, 1639007668666368000⟩, ⟨10, false, 26781171056640000⟩, ⟨12, false, 223176425472000⟩],
    [⟨0, false, 89076074693203360685788357459968000000⟩, ⟨2, false, 23403368235008096664312308406681600000000⟩,
      ⟨4, true, 2585836987951739953457336882194022400000000⟩,
      ⟨6, true, 970470535579885203482447608483204300800000000⟩,
      ⟨8, false, 18964335261079093504545956960881606656000000000⟩,
      ⟨10, false, 17303836231291099614652459024969038299136000000000⟩,
      ⟨12, false, 813102999647043418059880710982206153031680000000000⟩]⟩,
  ⟨0, 4, 9,
    [⟨13, false, 19129407897600⟩, ⟨15, false, 2678117105664000⟩, ⟨17, false, 182111963185152000⟩],
    [⟨13, false, 5691720997529303926419164976875443071221760000000000⟩,
      ⟨15, false, 165534123171896910852549029232492511494144000000000⟩,
      ⟨17, false, 679615377093567712560103583970553233408000000000⟩,
      ⟨19, true, 9205643901559928521546950901650948096000000000⟩,
      ⟨21, true, 51550648190799739570946124953734348800000000⟩,
      ⟨23, false, 224626571255928900113979507789004800000000⟩, ⟨25, false, 1626056335711805622201494815113216000000⟩]⟩,
  ⟨0, 3, 10,
    [⟨10, true, 21424936845312000⟩, ⟨12, true, 267811710566400⟩],
    [⟨0, false, 38786610605276939978602425876480000000⟩, ⟨2, true, 14224429760242135160405801041920000000000⟩,
      ⟨4, true, 2480937050119070796699055183154380800000000⟩,
      ⟨6, false, 613668382747465733791546449442583347200000000⟩,
      ⟨8, false, 116620482815240304977996483474554355712000000000⟩,
      ⟨10, true, 12272258263178207176163098189683109134336000000000⟩,
      ⟨12, true, 2020681711994137603297327311450829152583680000000000⟩]⟩,
  ⟨0, 2, 11,
    [⟨13, true, 25505877196800⟩, ⟨15, true, 2678117105664000⟩],
    [⟨13, true, 14144771983958963223081291180155804068085760000000000⟩,
      ⟨15, true, 165534123171896910852549029232492511494144000000000⟩,
      ⟨17, false, 688635572890744886679524286868544815104000000000⟩,
      ⟨19, false, 9205643901559928521546950901650948096000000000⟩,
      ⟨21, true, 12679155581132023197224215361303347200000000⟩,
      ⟨23, true, 224626571255928900113979507789004800000000⟩, ⟨25, false, 219737342663757516513715515555840000000⟩]⟩,
  ⟨0, 1, 12,
    [⟨12, false, 357082280755200⟩],
    [⟨0, true, 28936504533478217811553060651008000000⟩, ⟨2, true, 3165006319614910073862062132428800000000⟩,
      ⟨4, false, 1747083488427430360771858297100697600000000⟩,
      ⟨6, false, 257896497161617121890235557088958873600000000⟩,
      ⟨8, true, 98000668921414506318289511693804371968000000000⟩,
      ⟨10, true, 16839014266617813360811060928756909604864000000000⟩,
      ⟨12, false, 4041363423988275206594654622901658305167360000000000⟩]⟩,
  ⟨0, 0, 13,
    [⟨13, false, 51011754393600⟩],
    [⟨13, false, 28289543967917926446162582360311608136171520000000000⟩,
      ⟨17, true, 1377271145781489773359048573737089630208000000000⟩,
      ⟨21, false, 25358311162264046394448430722606694400000000⟩, ⟨25, true, 439474685327515033027431031111680000000⟩]⟩]

/-- degree 13: the rows of `V` -/
def certInverse13 : List (List CertEntry) := [
  [⟨0, false, 3207862135989⟩, ⟨2, true, 4828054071750⟩, ⟨4, true, 16266338728894800⟩,
    ⟨6, false, 114985002398666400⟩, ⟨8, false, 78411274541295696000⟩, ⟨10, true, 797399419588323552000⟩,
    ⟨12, true, 81035957517353879040000⟩],
  [⟨1, false, 572428570970880⟩, ⟨5, true, 2572569747551232000⟩, ⟨9, false, 8875028611180892160000⟩],
  [⟨0, true, 4828054071750⟩, ⟨2, false, 22480600374732500⟩, ⟨4, true, 103865432126820000⟩,
    ⟨6, true, 216304742442068280000⟩, ⟨8, false, 2827178083673143200000⟩, ⟨10, false, 774713345471782516800000⟩,
    ⟨12, true, 8863521071169308544000000⟩],
  [⟨3, false, 3866449420454400000⟩, ⟨7, true, 32065321150646784000000⟩, ⟨11, false, 62244419234728034304000000⟩],
  [⟨0, true, 16266338728894800⟩, ⟨2, true, 103865432126820000⟩, ⟨4, false, 321386860289607840000⟩,
    ⟨6, true, 2592333663066987840000⟩, ⟨8, true, 3136681303419516652800000⟩,
    ⟨10, false, 54638407676550182284800000⟩, ⟨12, false, 4892663631285458316288000000⟩],
  [⟨1, true, 2572569747551232000⟩, ⟨5, false, 52995800947942195200000⟩, ⟨9, true, 414532105593002901504000000⟩],
  [⟨0, false, 114985002398666400⟩, ⟨2, true, 216304742442068280000⟩, ⟨4, true, 2592333663066987840000⟩,
    ⟨6, false, 5208356862186322965120000⟩, ⟨8, true, 74918747562945647961600000⟩,
    ⟨10, true, 37670624723231259554995200000⟩, ⟨12, false, 722232692745736339335168000000⟩],
  [⟨3, true, 32065321150646784000000⟩, ⟨7, false, 846618902464549294080000000⟩,
    ⟨11, true, 3917144356115664880926720000000⟩],
  [⟨0, false, 78411274541295696000⟩, ⟨2, false, 2827178083673143200000⟩, ⟨4, true, 3136681303419516652800000⟩,
    ⟨6, true, 74918747562945647961600000⟩, ⟨8, false, 81826785991376270836992000000⟩,
    ⟨10, true, 2012607151913940300246528000000⟩, ⟨12, true, 274448423243379808947363840000000⟩],
  [⟨1, false, 8875028611180892160000⟩, ⟨5, true, 414532105593002901504000000⟩,
    ⟨9, false, 13532589010767940175462400000000⟩],
  [⟨0, true, 797399419588323552000⟩, ⟨2, false, 774713345471782516800000⟩, ⟨4, false, 54638407676550182284800000⟩,
    ⟨6, true, 37670624723231259554995200000⟩, ⟨8, true, 2012607151913940300246528000000⟩,
    ⟨10, false, 1162268021741696740762924032000000⟩, ⟨12, true, 47157238468973220595103416320000000⟩],
  [⟨3, false, 62244419234728034304000000⟩, ⟨7, true, 3917144356115664880926720000000⟩,
    ⟨11, false, 201403193383103912171934842880000000⟩],
  [⟨0, true, 81035957517353879040000⟩, ⟨2, true, 8863521071169308544000000⟩,
    ⟨4, false, 4892663631285458316288000000⟩, ⟨6, false, 722232692745736339335168000000⟩,
    ⟨8, true, 274448423243379808947363840000000⟩, ⟨10, true, 47157238468973220595103416320000000⟩,
    ⟨12, false, 11317737232553572942824819916800000000⟩],
  [⟨13, false, 554569124395125074198416175923200000000⟩, ⟨17, true, 26999093878533296909734625280000000⟩,
    ⟨21, false, 497107215066603013576704000000⟩, ⟨25, true, 8615165084042906188800000⟩],
  [⟨14, false, 11317737232553572942824819916800000000⟩, ⟨16, false, 47157238468973220595103416320000000⟩,
    ⟨18, true, 274448423243379808947363840000000⟩, ⟨20, true, 722232692745736339335168000000⟩,
    ⟨22, false, 4892663631285458316288000000⟩, ⟨24, false, 8863521071169308544000000⟩,
    ⟨26, true, 81035957517353879040000⟩],
  [⟨15, false, 61809889799742399250132893696000000⟩, ⟨19, true, 3437356746682488196030464000000⟩,
    ⟨23, false, 83874812935125935923200000⟩],
  [⟨14, false, 47157238468973220595103416320000000⟩, ⟨16, false, 1162268021741696740762924032000000⟩,
    ⟨18, false, 2012607151913940300246528000000⟩, ⟨20, true, 37670624723231259554995200000⟩,
    ⟨22, true, 54638407676550182284800000⟩, ⟨24, false, 774713345471782516800000⟩,
    ⟨26, false, 797399419588323552000⟩],
  [⟨13, true, 26999093878533296909734625280000000⟩, ⟨17, false, 6567893925483454821024768000000⟩,
    ⟨21, true, 335288323780077277209600000⟩, ⟨25, false, 9833836895651216448000⟩],
  [⟨14, true, 274448423243379808947363840000000⟩, ⟨16, false, 2012607151913940300246528000000⟩,
    ⟨18, false, 81826785991376270836992000000⟩, ⟨20, false, 74918747562945647961600000⟩,
    ⟨22, true, 3136681303419516652800000⟩, ⟨24, true, 2827178083673143200000⟩, ⟨26, false, 78411274541295696000⟩],
  [⟨15, true, 3437356746682488196030464000000⟩, ⟨19, false, 538071515750168015616000000⟩,
    ⟨23, true, 27421766915243500800000⟩],
  [⟨14, true, 722232692745736339335168000000⟩, ⟨16, true, 37670624723231259554995200000⟩,
    ⟨18, false, 74918747562945647961600000⟩, ⟨20, false, 5208356862186322965120000⟩,
    ⟨22, false, 2592333663066987840000⟩, ⟨24, true, 216304742442068280000⟩, ⟨26, true, 114985002398666400⟩],
  [⟨13, false, 497107215066603013576704000000⟩, ⟨17, true, 335288323780077277209600000⟩,
    ⟨21, false, 40482504288643697280000⟩, ⟨25, true, 2416348495625064000⟩],
  [⟨14, false, 4892663631285458316288000000⟩, ⟨16, true, 54638407676550182284800000⟩,
    ⟨18, true, 3136681303419516652800000⟩, ⟨20, false, 2592333663066987840000⟩, ⟨22, false, 321386860289607840000⟩,
    ⟨24, false, 103865432126820000⟩, ⟨26, true, 16266338728894800⟩],
  [⟨15, false, 83874812935125935923200000⟩, ⟨19, true, 27421766915243500800000⟩, ⟨23, false, 3334899943196640000⟩],
  [⟨14, false, 8863521071169308544000000⟩, ⟨16, false, 774713345471782516800000⟩,
    ⟨18, true, 2827178083673143200000⟩, ⟨20, true, 216304742442068280000⟩, ⟨22, false, 103865432126820000⟩,
    ⟨24, false, 22480600374732500⟩, ⟨26, false, 4828054071750⟩],
  [⟨13, true, 8615165084042906188800000⟩, ⟨17, false, 9833836895651216448000⟩, ⟨21, true, 2416348495625064000⟩,
    ⟨25, false, 548610353014724⟩],
  [⟨14, true, 81035957517353879040000⟩, ⟨16, false, 797399419588323552000⟩, ⟨18, false, 78411274541295696000⟩,
    ⟨20, true, 114985002398666400⟩, ⟨22, true, 16266338728894800⟩, ⟨24, false, 4828054071750⟩,
    ⟨26, false, 3207862135989⟩]]

/-- degree 13: the denominator -/
def certDen13 : ℕ := 2513308914355740264776756618332587055146620870732021760000000000000

/-- degree 14: the rows of `Qᵀ` and `U` -/
def certRows14 : List CertRow := [
  ⟨14, 0, 0,
    [⟨14, true, 299195895398400⟩, ⟨16, false, 62831138033664000⟩, ⟨18, true, 12817552158867456000⟩,
      ⟨20, false, 2435334910184816640000⟩, ⟨22, true, 409136264911049195520000⟩,
      ⟨24, false, 56460804557724788981760000⟩, ⟨26, true, 5646080455772478898176000000⟩,
      ⟨28, false, 304888344611713860501504000000⟩],
    [⟨14, true, 44143283710493728394892882730667940092313600000000000⟩,
      ⟨16, true, 3093648161678044080133886453665663014666240000000000⟩,
      ⟨18, false, 78573909851127939886441445876269276200960000000000⟩,
      ⟨20, false, 1392336777271680198890666704579489431552000000000⟩,
      ⟨22, true, 52244141995125361090165961907020759040000000000⟩,
      ⟨24, false, 604141137198349861697231859348406272000000000⟩,
      ⟨26, true, 3688753239755329329942526493322117120000000⟩,
      ⟨28, false, 13002729042795391379058911776604160000000⟩]⟩,
  ⟨13, 1, 0,
    [⟨0, false, 304888344611713860501504000000⟩, ⟨2, true, 4839497533519267627008000000⟩,
      ⟨4, false, 40329146112660563558400000⟩, ⟨6, true, 233792151377742397440000⟩,
      ⟨8, false, 1043714961507778560000⟩, ⟨10, true, 3662157759676416000⟩, ⟨12, false, 8975876861952000⟩],
    [⟨0, false, 25424680827687066217650544227385344000000⟩, ⟨2, true, 5841397906745242012520559140986159104000000⟩,
      ⟨4, false, 810006806835419612495190411896369971200000000⟩,
      ⟨6, true, 57222212108071782514311597958908346368000000000⟩,
      ⟨8, false, 756343003569631148880342121256865025228800000000⟩,
      ⟨10, false, 91326650524482564892841310342417720803328000000000⟩,
      ⟨12, true, 1369899757867238473392619655136265812049920000000000⟩]⟩,
  ⟨13, 0, 1,
    [⟨15, false, 4487938430976000⟩, ⟨17, true, 915539439919104000⟩, ⟨19, false, 173952493584629760000⟩,
      ⟨21, true, 29224018922217799680000⟩, ⟨23, false, 4032914611266056355840000⟩,
      ⟨25, true, 403291461126605635584000000⟩, ⟨27, false, 21777738900836704321536000000⟩],
    [⟨15, true, 10959198062937907787140957241090126496399360000000000⟩,
      ⟨17, false, 781648685371306658347553567930692845699072000000000⟩,
      ⟨19, false, 9966762944235326354404508326842800799744000000000⟩,
      ⟨21, true, 611436166437131723160276574660923595161600000000⟩,
      ⟨23, false, 8476120549240866164848554552345388646400000000⟩,
      ⟨25, true, 59738036650979753912863460594892668928000000⟩,
      ⟨27, false, 247771496277521852741171338794762240000000⟩]⟩,
  ⟨12, 2, 0,
    [⟨14, true, 23015068876800⟩, ⟨16, false, 3452260331520000⟩, ⟨18, false, 140852221526016000⟩,
      ⟨20, true, 294381142989373440000⟩, ⟨22, false, 112400072777760768000000⟩,
      ⟨24, true, 26679281274529295892480000⟩, ⟨26, false, 4032914611266056355840000000⟩,
      ⟨28, true, 304888344611713860501504000000⟩],
    [⟨14, false, 207690531555929509005479628585273750926131200000000000⟩,
      ⟨16, true, 5843557638725194373586229968035141249925120000000000⟩,
      ⟨18, true, 249911148939592025507891641624522370580480000000000⟩,
      ⟨20, false, 6902561305582533470084303089581969899520000000000⟩,
      ⟨22, true, 35275193486727019680353331046344818688000000000⟩,
      ⟨24, true, 416937250597429846608486976897155072000000000⟩,
      ⟨26, false, 6785248486854964006766471772918251520000000⟩,
      ⟨28, true, 43967794740379535495882548256440320000000⟩]⟩,
  ⟨12, 1, 1,
    [⟨1, false, 21777738900836704321536000000⟩, ⟨3, true, 341246620953281691648000000⟩,
      ⟨5, false, 2792017807799577477120000⟩, ⟨7, true, 15736010188886507520000⟩, ⟨9, false, 66904805224857600000⟩,
      ⟨11, true, 211278332289024000⟩, ⟨13, false, 345226033152000⟩],
    [⟨1, false, 464119566897716001353043899572027392000000⟩,
      ⟨3, true, 92138308924396538412671077070747467776000000⟩,
      ⟨5, false, 10964042814809204535036015333167490662400000000⟩,
      ⟨7, true, 647452499940447492154578580435060024934400000000⟩,
      ⟨9, false, 5160097127157296623202334098294499704832000000000⟩,
      ⟨11, false, 862231024069379509723590018232826128760832000000000⟩,
      ⟨13, true, 10959198062937907787140957241090126496399360000000000⟩]⟩,
  ⟨12, 0, 2,
    [⟨14, false, 322210964275200⟩, ⟨16, true, 66283398365184000⟩, ⟨18, false, 12676699937341440000⟩,
      ⟨20, true, 2140953767195443200000⟩, ⟨22, false, 296736192133288427520000⟩,
      ⟨24, true, 29781523283195493089280000⟩, ⟨26, false, 1613165844506422542336000000⟩],
    [⟨14, true, 163547247845435780610586745854605810833817600000000000⟩,
      ⟨16, false, 8937205800403238453720116421700804264591360000000000⟩,
      ⟨18, false, 171337239088464085621450195748253094379520000000000⟩,
      ⟨20, true, 8294898082854213668974969794161459331072000000000⟩,
      ⟨22, false, 87519335481852380770519292953365577728000000000⟩,
      ⟨24, true, 187203886600920015088744882451251200000000000⟩,
      ⟨26, true, 3096495247099634676823945279596134400000000⟩,
      ⟨28, false, 30965065697584144116823636479836160000000⟩]⟩,
  ⟨11, 3, 0,
    [⟨0, true, 304888344611713860501504000000⟩, ⟨2, false, 3226331689012845084672000000⟩,
      ⟨4, true, 15511210043330985984000000⟩, ⟨6, false, 35968023288883445760000⟩, ⟨8, false, 26761922089943040000⟩,
      ⟨10, true, 563408886104064000⟩, ⟨12, false, 2071356198912000⟩],
    [⟨0, true, 62807988161627957651446465466204160000000⟩, ⟨2, false, 7879870345783169604876951832032706560000000⟩,
      ⟨4, true, 236550333353186895766152548913355161600000000⟩,
      ⟨6, true, 71094263528210396457175015645916430336000000000⟩,
      ⟨8, false, 8093577000815211826803661017187948167168000000000⟩,
      ⟨10, true, 152211084207470941488068850570696201338880000000000⟩,
      ⟨12, true, 6301538886189296977606050413626822735429632000000000⟩]⟩,
  ⟨11, 2, 1,
    [⟨15, false, 345226033152000⟩, ⟨17, true, 23475370254336000⟩, ⟨19, true, 13380961044971520000⟩,
      ⟨21, false, 6744004366665646080000⟩, ⟨23, true, 1757937138244178411520000⟩,
      ⟨25, false, 279201780779957747712000000⟩, ⟨27, true, 21777738900836704321536000000⟩],
    [⟨15, true, 50412311089514375820848403309014581883437056000000000⟩,
      ⟨17, true, 1555239136872806031557503490831172363091968000000000⟩,
      ⟨19, false, 76930215160587093492034798314755897425920000000000⟩,
      ⟨21, true, 589332684505190269914552290743462920192000000000⟩,
      ⟨23, true, 4384131468242816585219374405349749555200000000⟩,
      ⟨25, false, 97707307828117466948077322838158082048000000⟩,
      ⟨27, true, 733388309340880858881788445563289600000000⟩]⟩,
  ⟨11, 1, 2,
    [⟨2, false, 1613165844506422542336000000⟩, ⟨4, true, 24817936069329577574400000⟩,
      ⟨6, false, 197824128088858951680000⟩, ⟨8, true, 1070476883597721600000⟩, ⟨10, false, 4225566645780480000⟩,
      ⟨12, true, 11047233060864000⟩],
    [⟨0, false, 37383307333940891433795921238818816000000⟩, ⟨2, true, 2038472439037927592356392691046547456000000⟩,
      ⟨4, true, 573456473482232716729037862983014809600000000⟩,
      ⟨6, false, 128316475636282178971486613604824776704000000000⟩,
      ⟨8, true, 8849920004384842975684003138444813192396800000000⟩,
      ⟨10, false, 60884433682988376595227540228278480535552000000000⟩,
      ⟨12, false, 7671438644056535450998670068763088547479552000000000⟩]⟩,
  ⟨11, 0, 3,
    [⟨15, true, 4833164464128000⟩, ⟨17, false, 939014810173440000⟩, ⟨19, true, 160571532539658240000⟩,
      ⟨21, false, 22480014555552153600000⟩, ⟨23, true, 2274977473021877944320000⟩,
      ⟨25, false, 124089680346647887872000000⟩],
    [⟨15, false, 61371509152452283607989360550104708379836416000000000⟩,
      ⟨17, false, 773590451501499373209949922900479517392896000000000⟩,
      ⟨19, true, 86896978104822419846439306641598698225664000000000⟩,
      ⟨21, false, 1200768850942321993074828865404386515353600000000⟩,
      ⟨23, true, 4091989080998049579629180146995639091200000000⟩,
      ⟨25, true, 37969271177137713035213862243265413120000000⟩,
      ⟨27, false, 485616813063359006140617106768527360000000⟩]⟩,
  ⟨10, 4, 0,
    [⟨14, true, 6276836966400⟩, ⟨16, false, 564915326976000⟩, ⟨18, false, 243290200817664000⟩,
      ⟨20, true, 94883178318888960000⟩, ⟨22, false, 4496002911110430720000⟩, ⟨24, false, 6824932419065633832960000⟩,
      ⟨26, true, 2419748766759633813504000000⟩, ⟨28, false, 304888344611713860501504000000⟩],
    [⟨14, false, 158481625124559451122648218328135719347814400000000000⟩,
      ⟨16, false, 22343014501008096134300291054252010661478400000000000⟩,
      ⟨18, true, 521638530185479167507955513142455849451520000000000⟩,
      ⟨20, true, 1510581938823415247628727571210443948032000000000⟩,
      ⟨22, false, 83865764743430264275420117907571474432000000000⟩,
      ⟨24, true, 241834965086996549523002135144300544000000000⟩,
      ⟨26, true, 6444147163653122542740993997421936640000000⟩,
      ⟨28, false, 78333196402752804281472441101844480000000⟩]⟩,
  ⟨10, 3, 1,
    [⟨1, true, 21777738900836704321536000000⟩, ⟨3, false, 217156940606633803776000000⟩,
      ⟨5, true, 930672602599859159040000⟩, ⟨7, false, 1430546380807864320000⟩, ⟨9, false, 6082255020441600000⟩,
      ⟨11, true, 44816615940096000⟩, ⟨13, false, 94152554496000⟩],
    [⟨1, true, 1025235359184701955358712587490426880000000⟩,
      ⟨3, false, 107169321162244942778723424794692288512000000⟩,
      ⟨5, true, 1293076532233668913168286768570774323200000000⟩,
      ⟨7, true, 974741113115438452143298053466698547200000000000⟩,
      ⟨9, false, 84941324855717143044038422029003065917440000000000⟩,
      ⟨11, true, 1184560378861670915227735819441359261007872000000000⟩,
      ⟨13, true, 50412311089514375820848403309014581883437056000000000⟩]⟩,
  ⟨10, 2, 2,
    [⟨14, false, 29291905843200⟩, ⟨16, true, 4017175658496000⟩, ⟨18, true, 384142422343680000⟩,
      ⟨20, false, 389264321308262400000⟩, ⟨22, true, 116896075688871198720000⟩,
      ⟨24, false, 19854348855463662059520000⟩, ⟨26, true, 1613165844506422542336000000⟩],
    [⟨14, true, 366172156680488960128127846913409470273945600000000000⟩,
      ⟨16, true, 16499456862282901760714061086216869411553280000000000⟩,
      ⟨18, false, 771549679125071193015847154766978220032000000000000⟩,
      ⟨20, true, 5391979366759118222455575518371525951488000000000⟩,
      ⟨22, true, 48590571256703244595066786861226655744000000000⟩,
      ⟨24, false, 658772215684426396131489112041455616000000000⟩,
      ⟨26, true, 341101323201841464025477775496314880000000⟩, ⟨28, true, 34365401662373268785589892845404160000000⟩]⟩,
  ⟨10, 1, 3,
    [⟨3, false, 124089680346647887872000000⟩, ⟨5, true, 1861345205199718318080000⟩,
      ⟨7, false, 14305463808078643200000⟩, ⟨9, true, 72987060245299200000⟩, ⟨11, false, 256094948229120000⟩,
      ⟨13, true, 439378587648000⟩],
    [⟨1, false, 561115792286985954005668687918399488000000⟩,
      ⟨3, true, 15031012237848404366052347723944820736000000⟩,
      ⟨5, true, 9670966282575535621867728564596716339200000000⟩,
      ⟨7, false, 1622193613055885944297876633901758572134400000000⟩,
      ⟨9, true, 90101421982874439667240756127297565622272000000000⟩,
      ⟨11, false, 322329354792291405504145801208533132247040000000000⟩,
      ⟨13, false, 61371509152452283607989360550104708379836416000000000⟩]⟩,
  ⟨10, 0, 4,
    [⟨14, true, 351502870118400⟩, ⟨16, false, 70300574023680000⟩, ⟨18, true, 12292557514997760000⟩,
      ⟨20, false, 1751689445887180800000⟩, ⟨22, true, 179840116444417228800000⟩,
      ⟨24, false, 9927174427731831029760000⟩],
    [⟨14, false, 529719404525924740738714592768015281107763200000000000⟩,
      ⟨16, false, 7562251061879663306993944664516065146961920000000000⟩,
      ⟨18, true, 942886918213535278637297350515231314411520000000000⟩,
      ⟨20, false, 13686877449613331891430545312532985282560000000000⟩,
      ⟨22, true, 38928764225149136175452506092138921984000000000⟩,
      ⟨24, true, 471568329083506381042744229590204416000000000⟩,
      ⟨26, false, 3437596570301476140849423055092449280000000⟩,
      ⟨28, false, 3400335964789124668766256365568000000000⟩]⟩,
  ⟨9, 5, 0,
    [⟨0, false, 304888344611713860501504000000⟩, ⟨2, true, 1613165844506422542336000000⟩,
      ⟨4, false, 620448401733239439360000⟩, ⟨6, false, 17984011644441722880000⟩, ⟨8, true, 46225138155356160000⟩,
      ⟨10, true, 128047474114560000⟩, ⟨12, false, 941525544960000⟩],
    [⟨0, false, 94251437649615668987622801033658368000000⟩, ⟨2, true, 5413695652466302723939381442651357184000000⟩,
      ⟨4, true, 578039099164503571718687968996412620800000000⟩,
      ⟨6, false, 86700321375866337142896360543800524800000000000⟩,
      ⟨8, false, 2572979937377062973761163851752325880217600000000⟩,
      ⟨10, true, 669728770512872142547502942511063285891072000000000⟩,
      ⟨12, false, 12055117869231698565855052965199139146039296000000000⟩]⟩,
  ⟨9, 4, 1,
    [⟨15, false, 94152554496000⟩, ⟨17, false, 6402373705728000⟩, ⟨19, true, 7055415823712256000⟩,
      ⟨21, false, 1021818843434188800000⟩, ⟨23, false, 310224200866619719680000⟩,
      ⟨25, true, 155112100433309859840000000⟩, ⟨27, false, 21777738900836704321536000000⟩],
    [⟨15, false, 96440942953853588526840423721593113168314368000000000⟩,
      ⟨17, true, 5672996644344328736872966101270183127547904000000000⟩,
      ⟨19, false, 8105358044484520723203666346179488120832000000000⟩,
      ⟨21, false, 1014964962214935969851887676737813531852800000000⟩,
      ⟨23, true, 5051679594846513792300421703091722649600000000⟩,
      ⟨25, true, 81938825465352006845585718134395895808000000⟩,
      ⟨27, false, 1219266503900798945013026965533229056000000⟩]⟩,
  ⟨9, 3, 2,
    [⟨2, true, 1613165844506422542336000000⟩, ⟨4, false, 14890761641597746544640000⟩,
      ⟨6, true, 53952034933325168640000⟩, ⟨8, false, 19463216065413120000⟩, ⟨10, false, 691456360218624000⟩,
      ⟨12, true, 3012881743872000⟩],
    [⟨0, true, 31443449487987711336176335567454208000000⟩, ⟨2, true, 2466174693316866880937570389381349376000000⟩,
      ⟨4, false, 814589432517690467484840517909767782400000000⟩,
      ⟨6, true, 15606057847655940685721344897884094464000000000⟩,
      ⟨8, true, 10666556938192274800564824868940274047385600000000⟩,
      ⟨10, false, 821939854720343084035571793081759487229952000000000⟩,
      ⟨12, true, 5753578983042401588249002551572316410609664000000000⟩]⟩,
  ⟨9, 2, 3,
    [⟨15, true, 439378587648000⟩, ⟨17, false, 17072996548608000⟩, ⟨19, false, 20436376868683776000⟩,
      ⟨21, true, 7765823210099834880000⟩, ⟨23, false, 1447712937377558691840000⟩,
      ⟨25, true, 124089680346647887872000000⟩],
    [⟨15, true, 46028631864339212705992020412578531284877312000000000⟩,
      ⟨17, false, 7228235781217134768430469592101355490639872000000000⟩,
      ⟨19, true, 85035573205071614215238464660935385546752000000000⟩,
      ⟨21, true, 425632277709745699937335385994350611660800000000⟩,
      ⟨23, false, 9435811063089330377519796108441472204800000000⟩,
      ⟨25, true, 15768482362765460102491604703762186240000000⟩,
      ⟨27, true, 485878194559918086131238519969939456000000⟩]⟩,
  ⟨9, 1, 4,
    [⟨4, false, 9927174427731831029760000⟩, ⟨6, true, 143872093155533783040000⟩, ⟨8, false, 1051013667532308480000⟩,
      ⟨10, true, 4917023005999104000⟩, ⟨12, false, 14060114804736000⟩],
    [⟨0, true, 5939857845953180097619585671364608000000⟩, ⟨2, false, 4504647132354794473293963080427896832000000⟩,
      ⟨4, true, 241132959035457750755802654926752972800000000⟩,
      ⟨6, true, 112710417788626238285765268706940682240000000000⟩,
      ⟨8, false, 19516476942577117776248828007385087239782400000000⟩,
      ⟨10, true, 882824288403331460630799333310037967765504000000000⟩,
      ⟨12, true, 1917859661014133862749667517190772136869888000000000⟩]⟩,
  ⟨9, 0, 5,
    [⟨15, false, 5272543051776000⟩, ⟨17, true, 956087806722048000⟩, ⟨19, false, 140135155670974464000⟩,
      ⟨21, true, 14714191345452318720000⟩, ⟨23, false, 827264535644319252480000⟩],
    [⟨15, true, 15342877288113070901997340137526177094959104000000000⟩,
      ⟨17, true, 8001826232718634141640419515001835008032768000000000⟩,
      ⟨19, false, 171932551309894034061677771302534083772416000000000⟩,
      ⟨21, true, 775136573232576293137493479410035903692800000000⟩,
      ⟨23, true, 5343821982091280797890615961445833113600000000⟩,
      ⟨25, false, 53737753539903173137705466947027599360000000⟩,
      ⟨27, false, 261381496559079990621413201412096000000⟩]⟩,
  ⟨8, 6, 0,
    [⟨14, true, 3487131648000⟩, ⟨16, false, 104613949440000⟩, ⟨18, false, 192071211171840000⟩,
      ⟨20, true, 21896118073589760000⟩, ⟨22, true, 13488008733331292160000⟩, ⟨24, false, 3102242008666197196800000⟩,
      ⟨26, false, 806582922253211271168000000⟩, ⟨28, true, 304888344611713860501504000000⟩],
    [⟨14, true, 960297335800412747213489432517973057418035200000000000⟩,
      ⟨16, false, 25092923978055246427752634568621488896737280000000000⟩,
      ⟨18, false, 391805342801674083993564681581667790356480000000000⟩,
      ⟨20, true, 7020806467134268518822363956212924416000000000000⟩,
      ⟨22, true, 42224016292202358583466648208748314624000000000⟩,
      ⟨24, false, 779243422708783158782716701101260800000000000⟩,
      ⟨26, false, 2620592858995068336012964044566691840000000⟩,
      ⟨28, true, 100352512464937930133403673842155520000000⟩]⟩,
  ⟨8, 5, 1,
    [⟨1, false, 21777738900836704321536000000⟩, ⟨3, true, 93067260259985915904000000⟩,
      ⟨5, true, 103408066955539906560000⟩, ⟨7, false, 1430546380807864320000⟩, ⟨9, true, 1216451004088320000⟩,
      ⟨11, true, 17784371404800000⟩, ⟨13, false, 52306974720000⟩],
    [⟨1, false, 1419773750288439786640411463409205248000000⟩,
      ⟨3, true, 58817261498771863976838199374539390976000000⟩,
      ⟨5, true, 8821258785101571928948089552822180249600000000⟩,
      ⟨7, false, 892442108054123447291832255225798013747200000000⟩,
      ⟨9, false, 43354240703056738752019610688867029483520000000000⟩,
      ⟨11, true, 6382121224887369828982086863928956018491392000000000⟩,
      ⟨13, false, 96440942953853588526840423721593113168314368000000000⟩]⟩,
  ⟨8, 4, 2,
    [⟨14, false, 9763968614400⟩, ⟨16, true, 669529276416000⟩, ⟨18, true, 435361411989504000⟩,
      ⟨20, false, 116779296392478720000⟩, ⟨22, false, 8992005822220861440000⟩,
      ⟨24, true, 9927174427731831029760000⟩, ⟨26, false, 1613165844506422542336000000⟩],
    [⟨14, false, 801815710675853296090841214189837338070220800000000000⟩,
      ⟨16, true, 47435938479063342562052925622873499558215680000000000⟩,
      ⟨18, false, 129833187383805083514390831560788059095040000000000⟩,
      ⟨20, false, 8531388405957683766451091527423368364032000000000⟩,
      ⟨22, true, 41641748451227905691953469698823159808000000000⟩,
      ⟨24, true, 537408457621786609259714565956960256000000000⟩,
      ⟨26, false, 3823554304658054206728029952855244800000000⟩,
      ⟨28, false, 22019316062185125851931232740311040000000⟩]⟩,
  ⟨8, 3, 3,
    [⟨3, true, 124089680346647887872000000⟩, ⟨5, false, 1034080669555399065600000⟩,
      ⟨7, true, 2861092761615728640000⟩, ⟨9, true, 4865804016353280000⟩, ⟨11, false, 62600987344896000⟩,
      ⟨13, true, 146459529216000⟩],
    [⟨1, true, 394538391103737831281698875918778368000000⟩, ⟨3, true, 48352059663473078801885225420152897536000000⟩,
      ⟨5, false, 10114335317335240842116376321392954572800000000⟩,
      ⟨7, false, 82299005061315004851465798240900533452800000000⟩,
      ⟨9, true, 128295565558773881796058032717870095400960000000000⟩,
      ⟨11, false, 7566681603749040744209822683370315279499264000000000⟩,
      ⟨13, true, 46028631864339212705992020412578531284877312000000000⟩]⟩,
  ⟨8, 2, 4,
    [⟨14, true, 39055874457600⟩, ⟨16, false, 4686704934912000⟩, ⟨18, false, 819503834333184000⟩,
      ⟨20, true, 506043617700741120000⟩, ⟨22, false, 107904069866650337280000⟩,
      ⟨24, true, 9927174427731831029760000⟩],
    [⟨14, true, 435643553995364335962713367276427867796275200000000000⟩,
      ⟨16, false, 63935395341346244322766986709090368969768960000000000⟩,
      ⟨18, true, 901382866508876276530237986327766279127040000000000⟩,
      ⟨20, true, 3139409039198565543995516009051842412544000000000⟩,
      ⟨22, false, 90232319707931150287020256560049815552000000000⟩,
      ⟨24, true, 121363758062639786871774546084495360000000000⟩,
      ⟨26, true, 3482452981456212742702552177358929920000000⟩,
      ⟨28, false, 12346085600188142933658660105093120000000⟩]⟩,
  ⟨8, 1, 5,
    [⟨5, false, 827264535644319252480000⟩, ⟨7, true, 11444371046462914560000⟩, ⟨9, false, 77852864261652480000⟩,
      ⟨11, true, 318695935574016000⟩, ⟨13, false, 585838116864000⟩],
    [⟨1, true, 166577401183248122723969811999621120000000⟩,
      ⟨3, false, 63383071901321483167937573144097718272000000⟩,
      ⟨5, true, 443369034759705220248647756796238233600000000⟩,
      ⟨7, true, 1704492618117200949149342432142659105587200000000⟩,
      ⟨9, false, 218396987541648321463298788845167661023232000000000⟩,
      ⟨11, true, 7889010958541332149713968484578848411746304000000000⟩,
      ⟨13, true, 15342877288113070901997340137526177094959104000000000⟩]⟩,
  ⟨8, 0, 6,
    [⟨14, false, 390558744576000⟩, ⟨16, true, 74987278958592000⟩, ⟨18, false, 11473053680664576000⟩,
      ⟨20, true, 1245645828186439680000⟩, ⟨22, false, 71936046577766891520000⟩],
    [⟨14, true, 94075850530560404776001225491587413311488000000000000⟩,
      ⟨16, true, 71497646403225907629760931373606434116730880000000000⟩,
      ⟨18, false, 1844269784722411555167535336842997593538560000000000⟩,
      ⟨20, true, 10547468410414766347435029303481142870016000000000⟩,
      ⟨22, true, 51303555482782014111567750467910893568000000000⟩,
      ⟨24, false, 592932087146146167914518775674699776000000000⟩,
      ⟨26, false, 44856411154736601853129122266480640000000⟩, ⟨28, true, 15746421564977267602424916470661120000000⟩]⟩,
  ⟨7, 7, 0,
    [⟨0, true, 304888344611713860501504000000⟩, ⟨4, false, 4343138812132676075520000⟩,
      ⟨8, true, 51090942171709440000⟩, ⟨12, false, 732297646080000⟩],
    [⟨0, true, 106344252023869936866195528499593216000000⟩,
      ⟨4, false, 937036082048205873085309983626625024000000000⟩,
      ⟨8, true, 9528508119737035408324310088357514523443200000000⟩,
      ⟨12, false, 33973513995107514140136967447379392138838016000000000⟩]⟩,
  ⟨7, 6, 1,
    [⟨15, false, 52306974720000⟩, ⟨17, false, 10670622842880000⟩, ⟨19, true, 3649353012264960000⟩,
      ⟨21, true, 613091306060513280000⟩, ⟨23, false, 310224200866619719680000⟩,
      ⟨25, false, 31022420086661971968000000⟩, ⟨27, true, 21777738900836704321536000000⟩],
    [⟨15, false, 271788111960860113121095739579035137110704128000000000⟩,
      ⟨17, false, 999220999856103357062851983746452709965824000000000⟩,
      ⟨19, true, 95285081197370354083243100883575145234432000000000⟩,
      ⟨21, true, 226869240946119890674388335437083679129600000000⟩,
      ⟨23, false, 11244432984578470477023719803519500288000000000⟩,
      ⟨25, false, 18740721640964117461706199672532500480000000⟩,
      ⟨27, true, 1488819528334179116126737398994305024000000⟩]⟩,
  ⟨7, 5, 2,
    [⟨2, false, 1613165844506422542336000000⟩, ⟨4, true, 4963587213865915514880000⟩,
      ⟨6, true, 17984011644441722880000⟩, ⟨8, false, 97316080327065600000⟩, ⟨10, false, 128047474114560000⟩,
      ⟨12, true, 1673823191040000⟩],
    [⟨0, false, 12092814374254267878572727465934848000000⟩, ⟨2, false, 5413695652466302723939381442651357184000000⟩,
      ⟨4, true, 358996982883702301366622014630212403200000000⟩,
      ⟨6, true, 86700321375866337142896360543800524800000000000⟩,
      ⟨8, false, 6955528182359972434563146236605188643225600000000⟩,
      ⟨10, false, 669728770512872142547502942511063285891072000000000⟩,
      ⟨12, true, 46028631864339212705992020412578531284877312000000000⟩]⟩,
  ⟨7, 4, 3,
    [⟨15, true, 146459529216000⟩, ⟨17, true, 17072996548608000⟩, ⟨19, false, 10704768835977216000⟩,
      ⟨21, true, 408727537373675520000⟩, ⟨23, true, 620448401733239439360000⟩,
      ⟨25, false, 124089680346647887872000000⟩],
    [⟨15, true, 368229054914713701647936163300628250279018496000000000⟩,
      ⟨17, false, 4673775644488225379810114117523730417582080000000000⟩,
      ⟨19, false, 87179723152885833360039434537395657113600000000000⟩,
      ⟨21, true, 788095721268816079177499341300729852723200000000⟩,
      ⟨23, true, 6192753389731956684723298100427777638400000000⟩,
      ⟨25, false, 63198103824387889383879518461863395328000000⟩,
      ⟨27, false, 269553024433380171113710433461075968000000⟩]⟩,
  ⟨7, 3, 4,
    [⟨4, true, 9927174427731831029760000⟩, ⟨6, false, 71936046577766891520000⟩, ⟨8, true, 116779296392478720000⟩,
      ⟨10, true, 819503834333184000⟩, ⟨12, false, 4686704934912000⟩],
    [⟨0, false, 19350635113733443457603608101519360000000⟩, ⟨2, true, 2947520959149435843001811053270007808000000⟩,
      ⟨4, true, 455592449633988166118218503279555379200000000⟩,
      ⟨6, false, 102306379223522277828617705441684619264000000000⟩,
      ⟨8, false, 3711028755832302366001678632335085404160000000000⟩,
      ⟨10, true, 1491668625233215226583074735592822773121024000000000⟩,
      ⟨12, false, 51782210847381614294241022964150847695486976000000000⟩]⟩,
  ⟨7, 2, 5,
    [⟨15, false, 585838116864000⟩, ⟨19, true, 31141145704660992000⟩, ⟨21, false, 8174550747473510400000⟩,
      ⟨23, true, 827264535644319252480000⟩],
    [⟨15, false, 414257686779052914353928183713206781563895808000000000⟩,
      ⟨17, true, 11902011425705360148240583709625085908221952000000000⟩,
      ⟨19, true, 2144149947814219144800969876460271566848000000000⟩,
      ⟨21, false, 1213727998978561779114834727295080464384000000000⟩,
      ⟨23, true, 3243057673357373692796498008013694566400000000⟩,
      ⟨25, true, 47429621461622429281387913758101209088000000⟩,
      ⟨27, false, 216325170126537915017528086508863488000000⟩]⟩,
  ⟨7, 1, 6,
    [⟨6, false, 71936046577766891520000⟩, ⟨8, true, 934234371139829760000⟩, ⟨10, false, 5736526840332288000⟩,
      ⟨12, true, 18746819739648000⟩],
    [⟨0, true, 13410777267780263359984022430154752000000⟩, ⟨2, true, 1557126173205358630292152027157889024000000⟩,
      ⟨4, false, 696725408669445916874021158206308352000000000⟩,
      ⟨6, false, 10404038565103960457147563265256062976000000000⟩,
      ⟨8, true, 23227505698409420142250506639720172643942400000000⟩,
      ⟨10, false, 2374492913636546687213874068902860740886528000000000⟩,
      ⟨12, true, 49864351186367480431491355446960075558617088000000000⟩]⟩,
  ⟨7, 0, 7,
    [⟨15, true, 5858381168640000⟩, ⟨17, false, 956087806722048000⟩, ⟨19, true, 108994009966313472000⟩,
      ⟨21, false, 6539640597978808320000⟩],
    [⟨15, true, 398914809490939843451930843575680604468936704000000000⟩,
      ⟨17, false, 19903837658423994289881003224626920916254720000000000⟩,
      ⟨19, true, 169788401362079814916876801426073812205568000000000⟩,
      ⟨21, true, 438591425745985485977341247885044560691200000000⟩,
      ⟨23, false, 8586879655448654490687113969459527680000000000⟩,
      ⟨25, true, 6308132078280743856317553188926390272000000⟩,
      ⟨27, true, 216586551623096995008149499710275584000000⟩]⟩,
  ⟨6, 8, 0,
    [⟨14, true, 3487131648000⟩, ⟨16, true, 104613949440000⟩, ⟨18, false, 192071211171840000⟩,
      ⟨20, false, 21896118073589760000⟩, ⟨22, true, 13488008733331292160000⟩, ⟨24, true, 3102242008666197196800000⟩,
      ⟨26, false, 806582922253211271168000000⟩, ⟨28, false, 304888344611713860501504000000⟩],
    [⟨14, true, 960297335800412747213489432517973057418035200000000000⟩,
      ⟨16, true, 25092923978055246427752634568621488896737280000000000⟩,
      ⟨18, false, 391805342801674083993564681581667790356480000000000⟩,
      ⟨20, false, 7020806467134268518822363956212924416000000000000⟩,
      ⟨22, true, 42224016292202358583466648208748314624000000000⟩,
      ⟨24, true, 779243422708783158782716701101260800000000000⟩,
      ⟨26, false, 2620592858995068336012964044566691840000000⟩,
      ⟨28, false, 100352512464937930133403673842155520000000⟩]⟩,
  ⟨6, 7, 1,
    [⟨1, true, 21777738900836704321536000000⟩, ⟨3, true, 31022420086661971968000000⟩,
      ⟨5, false, 310224200866619719680000⟩, ⟨7, false, 613091306060513280000⟩, ⟨9, true, 3649353012264960000⟩,
      ⟨11, true, 10670622842880000⟩, ⟨13, false, 52306974720000⟩],
    [⟨1, true, 1488819528334179116126737398994305024000000⟩,
      ⟨3, true, 18740721640964117461706199672532500480000000⟩,
      ⟨5, false, 11244432984578470477023719803519500288000000000⟩,
      ⟨7, false, 226869240946119890674388335437083679129600000000⟩,
      ⟨9, true, 95285081197370354083243100883575145234432000000000⟩,
      ⟨11, true, 999220999856103357062851983746452709965824000000000⟩,
      ⟨13, false, 271788111960860113121095739579035137110704128000000000⟩]⟩,
  ⟨6, 6, 2,
    [⟨14, false, 6974263296000⟩, ⟨18, true, 384142422343680000⟩, ⟨22, false, 26976017466662584320000⟩,
      ⟨26, true, 1613165844506422542336000000⟩],
    [⟨14, false, 1920594671600825494426978865035946114836070400000000000⟩,
      ⟨18, true, 783610685603348167987129363163335580712960000000000⟩,
      ⟨22, false, 84448032584404717166933296417496629248000000000⟩,
      ⟨26, true, 5241185717990136672025928089133383680000000⟩]⟩,
  ⟨6, 5, 3,
    [⟨3, false, 124089680346647887872000000⟩, ⟨5, true, 206816133911079813120000⟩,
      ⟨7, true, 2043637686868377600000⟩, ⟨9, false, 4865804016353280000⟩, ⟨11, false, 28454994247680000⟩,
      ⟨13, true, 104613949440000⟩],
    [⟨1, false, 69045778045739329486325935585099776000000⟩,
      ⟨3, false, 77557983139735981438544399047071891456000000⟩,
      ⟨5, true, 2423174199476898548075630250697320038400000000⟩,
      ⟨7, true, 1119311349000243337966220590662881692876800000000⟩,
      ⟨9, false, 51930840494313615331223490194708115750912000000000⟩,
      ⟨11, false, 7381342224743473186044938847675408728457216000000000⟩,
      ⟨13, true, 368229054914713701647936163300628250279018496000000000⟩]⟩,
  ⟨6, 4, 4,
    [⟨14, true, 16738231910400⟩, ⟨16, false, 669529276416000⟩, ⟨18, false, 819503834333184000⟩,
      ⟨20, true, 116779296392478720000⟩, ⟨22, true, 35968023288883445760000⟩, ⟨24, false, 9927174427731831029760000⟩],
    [⟨14, true, 2722410382276678790517820079225783452906291200000000000⟩,
      ⟨16, false, 47435938479063342562052925622873499558215680000000000⟩,
      ⟨18, false, 653777498219543084472738531602547521617920000000000⟩,
      ⟨20, true, 8531388405957683766451091527423368364032000000000⟩,
      ⟨22, true, 42806284133176811474979826718673469440000000000⟩,
      ⟨24, false, 537408457621786609259714565956960256000000000⟩,
      ⟨26, false, 1417631413332082465297898136278138880000000⟩,
      ⟨28, true, 22019316062185125851931232740311040000000⟩]⟩,
  ⟨6, 3, 5,
    [⟨5, true, 827264535644319252480000⟩, ⟨7, false, 4904730448484106240000⟩, ⟨11, true, 91055981592576000⟩,
      ⟨13, false, 251073478656000⟩],
    [⟨1, false, 325492613057998501795372940333678592000000⟩,
      ⟨3, true, 29205923476262902636659173626918993920000000⟩,
      ⟨5, true, 7691161117858342294040746070695634534400000000⟩,
      ⟨7, false, 1037012343938928333114754792421981159424000000000⟩,
      ⟨9, false, 76364725064460266464834542523161979650048000000000⟩,
      ⟨11, true, 14948023828492513930254761531045724007956480000000000⟩,
      ⟨13, false, 414257686779052914353928183713206781563895808000000000⟩]⟩,
  ⟨6, 2, 6,
    [⟨14, false, 55794106368000⟩, ⟨16, true, 5356234211328000⟩, ⟨18, true, 1639007668666368000⟩,
      ⟨20, false, 622822914093219840000⟩, ⟨22, true, 71936046577766891520000⟩],
    [⟨14, false, 3158053936272043126480533446502211320702566400000000000⟩,
      ⟨16, true, 111371333820409586884819912331963868527984640000000000⟩,
      ⟨18, false, 247605368289333192057499454725218757509120000000000⟩,
      ⟨20, false, 11670797445156249310446607536475210776576000000000⟩,
      ⟨22, true, 47426035574754338812040429841376346112000000000⟩,
      ⟨24, true, 416044699559146822387940019872464896000000000⟩,
      ⟨26, false, 2064821568124130277404654041080791040000000⟩,
      ⟨28, false, 9673230461996982918272572635217920000000⟩]⟩,
  ⟨6, 1, 7,
    [⟨7, false, 6539640597978808320000⟩, ⟨9, true, 77852864261652480000⟩, ⟨11, false, 409751917166592000⟩,
      ⟨13, true, 836911595520000⟩],
    [⟨1, true, 158915211874750379071403128334057472000000⟩, ⟨3, true, 34177148425058580531278399517178724352000000⟩,
      ⟨5, false, 8134530152618047514289393827491872768000000000⟩,
      ⟨7, false, 667480274178272616034587639720677946163200000000⟩,
      ⟨9, true, 294761712606108587928133331368329640673280000000000⟩,
      ⟨11, false, 22837034787033846079968730015624572419702784000000000⟩,
      ⟨13, true, 398914809490939843451930843575680604468936704000000000⟩]⟩,
  ⟨6, 0, 8,
    [⟨14, true, 446352850944000⟩, ⟨16, false, 80343513169920000⟩, ⟨18, true, 9834046011998208000⟩,
      ⟨20, false, 622822914093219840000⟩],
    [⟨14, true, 3063978085741482721704532221010623907391078400000000000⟩,
      ⟨16, false, 182868980223635494514580843705570302644715520000000000⟩,
      ⟨18, true, 2091875153011744747225034791568216351047680000000000⟩,
      ⟨20, true, 1123329034741482963011578232994067906560000000000⟩,
      ⟨22, false, 98729591057536352923608180309287239680000000000⟩,
      ⟨24, true, 176887387586999345526578755802234880000000000⟩,
      ⟨26, true, 2109677979278866879257783163347271680000000⟩, ⟨28, false, 6073191102980284684152343835443200000000⟩]⟩,
  ⟨5, 9, 0,
    [⟨0, false, 304888344611713860501504000000⟩, ⟨2, false, 1613165844506422542336000000⟩,
      ⟨4, false, 620448401733239439360000⟩, ⟨6, true, 17984011644441722880000⟩, ⟨8, true, 46225138155356160000⟩,
      ⟨10, false, 128047474114560000⟩, ⟨12, false, 941525544960000⟩],
    [⟨0, false, 94251437649615668987622801033658368000000⟩, ⟨2, false, 5413695652466302723939381442651357184000000⟩,
      ⟨4, true, 578039099164503571718687968996412620800000000⟩,
      ⟨6, true, 86700321375866337142896360543800524800000000000⟩,
      ⟨8, false, 2572979937377062973761163851752325880217600000000⟩,
      ⟨10, false, 669728770512872142547502942511063285891072000000000⟩,
      ⟨12, false, 12055117869231698565855052965199139146039296000000000⟩]⟩,
  ⟨5, 8, 1,
    [⟨15, false, 52306974720000⟩, ⟨17, false, 17784371404800000⟩, ⟨19, true, 1216451004088320000⟩,
      ⟨21, true, 1430546380807864320000⟩, ⟨23, true, 103408066955539906560000⟩,
      ⟨25, false, 93067260259985915904000000⟩, ⟨27, false, 21777738900836704321536000000⟩],
    [⟨15, false, 96440942953853588526840423721593113168314368000000000⟩,
      ⟨17, false, 6382121224887369828982086863928956018491392000000000⟩,
      ⟨19, false, 43354240703056738752019610688867029483520000000000⟩,
      ⟨21, true, 892442108054123447291832255225798013747200000000⟩,
      ⟨23, true, 8821258785101571928948089552822180249600000000⟩,
      ⟨25, false, 58817261498771863976838199374539390976000000⟩,
      ⟨27, false, 1419773750288439786640411463409205248000000⟩]⟩,
  ⟨5, 7, 2,
    [⟨2, true, 1613165844506422542336000000⟩, ⟨4, true, 4963587213865915514880000⟩,
      ⟨6, false, 17984011644441722880000⟩, ⟨8, false, 97316080327065600000⟩, ⟨10, true, 128047474114560000⟩,
      ⟨12, true, 1673823191040000⟩],
    [⟨0, false, 12092814374254267878572727465934848000000⟩, ⟨2, true, 5413695652466302723939381442651357184000000⟩,
      ⟨4, true, 358996982883702301366622014630212403200000000⟩,
      ⟨6, false, 86700321375866337142896360543800524800000000000⟩,
      ⟨8, false, 6955528182359972434563146236605188643225600000000⟩,
      ⟨10, true, 669728770512872142547502942511063285891072000000000⟩,
      ⟨12, true, 46028631864339212705992020412578531284877312000000000⟩]⟩,
  ⟨5, 6, 3,
    [⟨15, true, 104613949440000⟩, ⟨17, true, 28454994247680000⟩, ⟨19, false, 4865804016353280000⟩,
      ⟨21, false, 2043637686868377600000⟩, ⟨23, true, 206816133911079813120000⟩,
      ⟨25, true, 124089680346647887872000000⟩],
    [⟨15, true, 368229054914713701647936163300628250279018496000000000⟩,
      ⟨17, true, 7381342224743473186044938847675408728457216000000000⟩,
      ⟨19, false, 51930840494313615331223490194708115750912000000000⟩,
      ⟨21, false, 1119311349000243337966220590662881692876800000000⟩,
      ⟨23, true, 2423174199476898548075630250697320038400000000⟩,
      ⟨25, true, 77557983139735981438544399047071891456000000⟩,
      ⟨27, false, 69045778045739329486325935585099776000000⟩]⟩,
  ⟨5, 5, 4,
    [⟨4, false, 9927174427731831029760000⟩, ⟨8, true, 194632160654131200000⟩, ⟨12, false, 3347646382080000⟩],
    [⟨0, true, 24185628748508535757145454931869696000000⟩,
      ⟨4, false, 717993965767404602733244029260424806400000000⟩,
      ⟨8, true, 13911056364719944869126292473210377286451200000000⟩,
      ⟨12, false, 92057263728678425411984040825157062569754624000000000⟩]⟩,
  ⟨5, 4, 5,
    [⟨15, false, 251073478656000⟩, ⟨17, false, 45527990796288000⟩, ⟨19, true, 15570572852330496000⟩,
      ⟨21, true, 1634910149494702080000⟩, ⟨23, false, 827264535644319252480000⟩],
    [⟨15, false, 736458109829427403295872326601256500558036992000000000⟩,
      ⟨17, false, 2707566580255247806234824730151678310875136000000000⟩,
      ⟨19, true, 139110563647199448691262924732103772864512000000000⟩,
      ⟨21, true, 331215627731427258788721249362151840153600000000⟩,
      ⟨23, false, 8615927589208855232798928351125097676800000000⟩,
      ⟨25, false, 14359879315348092054664880585208496128000000⟩,
      ⟨27, true, 338598802479119500600036369046175744000000⟩]⟩,
  ⟨5, 3, 6,
    [⟨6, true, 71936046577766891520000⟩, ⟨8, false, 311411457046609920000⟩, ⟨10, false, 819503834333184000⟩,
      ⟨12, true, 8034351316992000⟩],
    [⟨0, false, 4834993634775092299541846830350336000000⟩, ⟨2, false, 2947520959149435843001811053270007808000000⟩,
      ⟨4, true, 262401516133416436615025525980869427200000000⟩,
      ⟨6, true, 102306379223522277828617705441684619264000000000⟩,
      ⟨8, false, 10200027608887642503124613840875291882291200000000⟩,
      ⟨10, false, 1491668625233215226583074735592822773121024000000000⟩,
      ⟨12, true, 143839474576060039706225063789307910265241600000000000⟩]⟩,
  ⟨5, 2, 7,
    [⟨15, true, 836911595520000⟩, ⟨17, true, 45527990796288000⟩, ⟨19, false, 46711718556991488000⟩,
      ⟨21, true, 6539640597978808320000⟩],
    [⟨15, true, 1150715796608480317649800510314463282121932800000000000⟩,
      ⟨17, false, 9194444845450112342005758979473407597346816000000000⟩,
      ⟨19, false, 141254713595013667836063894608564044431360000000000⟩,
      ⟨21, true, 882512371247134520326113477932928624230400000000⟩,
      ⟨23, true, 5372869915851481540002430343111403110400000000⟩,
      ⟨25, false, 33069742146274337226723033172892712960000000⟩,
      ⟨27, false, 122273632352581585582508282537312256000000⟩]⟩,
  ⟨5, 1, 8,
    [⟨8, false, 622822914093219840000⟩, ⟨10, true, 6556030674665472000⟩, ⟨12, false, 26781171056640000⟩],
    [⟨0, false, 8575783633005171060442175599804416000000⟩, ⟨2, true, 1390394785944077212709659026112118784000000⟩,
      ⟨4, true, 434323892536029480258995632225438924800000000⟩,
      ⟨6, false, 91902340658418317371470142176428556288000000000⟩,
      ⟨8, false, 13027478089521777639125892798844880761651200000000⟩,
      ⟨10, true, 3866161538869761913796948804495683514007552000000000⟩,
      ⟨12, false, 193703825762427520137716419236267985823858688000000000⟩]⟩,
  ⟨5, 0, 9,
    [⟨15, false, 6695292764160000⟩, ⟨17, true, 910559815925760000⟩, ⟨19, false, 62282291409321984000⟩],
    [⟨15, false, 1549630606099420161101731353890143886590869504000000000⟩,
      ⟨17, true, 29098282503874106631886762204100328513601536000000000⟩,
      ⟨19, false, 28533687767066147080812906817509767774208000000000⟩,
      ⟨21, false, 1321103796993120006303454725817973184921600000000⟩,
      ⟨23, true, 3214009739597172950684683626348124569600000000⟩,
      ⟨25, true, 26761610067993593370405479983966322688000000⟩,
      ⟨27, false, 94312919270515409425641217172963328000000⟩]⟩,
  ⟨4, 10, 0,
    [⟨14, true, 6276836966400⟩, ⟨16, true, 564915326976000⟩, ⟨18, false, 243290200817664000⟩,
      ⟨20, false, 94883178318888960000⟩, ⟨22, false, 4496002911110430720000⟩, ⟨24, true, 6824932419065633832960000⟩,
      ⟨26, true, 2419748766759633813504000000⟩, ⟨28, true, 304888344611713860501504000000⟩],
    [⟨14, false, 158481625124559451122648218328135719347814400000000000⟩,
      ⟨16, true, 22343014501008096134300291054252010661478400000000000⟩,
      ⟨18, true, 521638530185479167507955513142455849451520000000000⟩,
      ⟨20, false, 1510581938823415247628727571210443948032000000000⟩,
      ⟨22, false, 83865764743430264275420117907571474432000000000⟩,
      ⟨24, false, 241834965086996549523002135144300544000000000⟩,
      ⟨26, true, 6444147163653122542740993997421936640000000⟩, ⟨28, true, 78333196402752804281472441101844480000000⟩]⟩,
  ⟨4, 9, 1,
    [⟨1, false, 21777738900836704321536000000⟩, ⟨3, false, 155112100433309859840000000⟩,
      ⟨5, false, 310224200866619719680000⟩, ⟨7, true, 1021818843434188800000⟩, ⟨9, true, 7055415823712256000⟩,
      ⟨11, true, 6402373705728000⟩, ⟨13, false, 94152554496000⟩],
    [⟨1, false, 1219266503900798945013026965533229056000000⟩,
      ⟨3, false, 81938825465352006845585718134395895808000000⟩,
      ⟨5, true, 5051679594846513792300421703091722649600000000⟩,
      ⟨7, true, 1014964962214935969851887676737813531852800000000⟩,
      ⟨9, false, 8105358044484520723203666346179488120832000000000⟩,
      ⟨11, false, 5672996644344328736872966101270183127547904000000000⟩,
      ⟨13, false, 96440942953853588526840423721593113168314368000000000⟩]⟩,
  ⟨4, 8, 2,
    [⟨14, false, 9763968614400⟩, ⟨16, false, 669529276416000⟩, ⟨18, true, 435361411989504000⟩,
      ⟨20, true, 116779296392478720000⟩, ⟨22, false, 8992005822220861440000⟩,
      ⟨24, false, 9927174427731831029760000⟩, ⟨26, false, 1613165844506422542336000000⟩],
    [⟨14, false, 801815710675853296090841214189837338070220800000000000⟩,
      ⟨16, false, 47435938479063342562052925622873499558215680000000000⟩,
      ⟨18, false, 129833187383805083514390831560788059095040000000000⟩,
      ⟨20, true, 8531388405957683766451091527423368364032000000000⟩,
      ⟨22, true, 41641748451227905691953469698823159808000000000⟩,
      ⟨24, false, 537408457621786609259714565956960256000000000⟩,
      ⟨26, false, 3823554304658054206728029952855244800000000⟩,
      ⟨28, true, 22019316062185125851931232740311040000000⟩]⟩,
  ⟨4, 7, 3,
    [⟨3, true, 124089680346647887872000000⟩, ⟨5, true, 620448401733239439360000⟩, ⟨7, false, 408727537373675520000⟩,
      ⟨9, false, 10704768835977216000⟩, ⟨11, false, 17072996548608000⟩, ⟨13, true, 146459529216000⟩],
    [⟨1, false, 269553024433380171113710433461075968000000⟩,
      ⟨3, true, 63198103824387889383879518461863395328000000⟩,
      ⟨5, true, 6192753389731956684723298100427777638400000000⟩,
      ⟨7, false, 788095721268816079177499341300729852723200000000⟩,
      ⟨9, false, 87179723152885833360039434537395657113600000000000⟩,
      ⟨11, true, 4673775644488225379810114117523730417582080000000000⟩,
      ⟨13, true, 368229054914713701647936163300628250279018496000000000⟩]⟩,
  ⟨4, 6, 4,
    [⟨14, true, 16738231910400⟩, ⟨16, true, 669529276416000⟩, ⟨18, false, 819503834333184000⟩,
      ⟨20, false, 116779296392478720000⟩, ⟨22, true, 35968023288883445760000⟩, ⟨24, true, 9927174427731831029760000⟩],
    [⟨14, true, 2722410382276678790517820079225783452906291200000000000⟩,
      ⟨16, true, 47435938479063342562052925622873499558215680000000000⟩,
      ⟨18, false, 653777498219543084472738531602547521617920000000000⟩,
      ⟨20, false, 8531388405957683766451091527423368364032000000000⟩,
      ⟨22, true, 42806284133176811474979826718673469440000000000⟩,
      ⟨24, true, 537408457621786609259714565956960256000000000⟩,
      ⟨26, false, 1417631413332082465297898136278138880000000⟩,
      ⟨28, false, 22019316062185125851931232740311040000000⟩]⟩,
  ⟨4, 5, 5,
    [⟨5, false, 827264535644319252480000⟩, ⟨7, false, 1634910149494702080000⟩, ⟨9, true, 15570572852330496000⟩,
      ⟨11, true, 45527990796288000⟩, ⟨13, false, 251073478656000⟩],
    [⟨1, true, 338598802479119500600036369046175744000000⟩, ⟨3, true, 14359879315348092054664880585208496128000000⟩,
      ⟨5, false, 8615927589208855232798928351125097676800000000⟩,
      ⟨7, false, 331215627731427258788721249362151840153600000000⟩,
      ⟨9, true, 139110563647199448691262924732103772864512000000000⟩,
      ⟨11, true, 2707566580255247806234824730151678310875136000000000⟩,
      ⟨13, false, 736458109829427403295872326601256500558036992000000000⟩]⟩,
  ⟨4, 4, 6,
    [⟨14, false, 33476463820800⟩, ⟨18, true, 1639007668666368000⟩, ⟨22, false, 71936046577766891520000⟩],
    [⟨14, false, 5444820764553357581035640158451566905812582400000000000⟩,
      ⟨18, true, 1307554996439086168945477063205095043235840000000000⟩,
      ⟨22, false, 85612568266353622949959653437346938880000000000⟩,
      ⟨26, true, 2835262826664164930595796272556277760000000⟩]⟩,
  ⟨4, 3, 7,
    [⟨7, true, 6539640597978808320000⟩, ⟨9, false, 15570572852330496000⟩, ⟨11, false, 136583972388864000⟩,
      ⟨13, true, 502146957312000⟩],
    [⟨1, false, 13106189421120998804663428712497152000000⟩,
      ⟨3, false, 43565802791610994691324054212127490048000000⟩,
      ⟨5, true, 924766471350512938758182280429463142400000000⟩,
      ⟨7, true, 1368227971670355591903476041784132999577600000000⟩,
      ⟨9, false, 62745838582739182226428382208941793214464000000000⟩,
      ⟨11, false, 17655590408747761736489586261197402318831616000000000⟩,
      ⟨13, true, 1150715796608480317649800510314463282121932800000000000⟩]⟩,
  ⟨4, 2, 8,
    [⟨14, true, 89270570188800⟩, ⟨16, false, 5356234211328000⟩, ⟨18, false, 3278015337332736000⟩,
      ⟨20, true, 622822914093219840000⟩],
    [⟨14, true, 8602874700825400707516173604953778226515148800000000000⟩,
      ⟨16, false, 111371333820409586884819912331963868527984640000000000⟩,
      ⟨18, false, 1059949628149752976887977608479876285726720000000000⟩,
      ⟨20, true, 11670797445156249310446607536475210776576000000000⟩,
      ⟨22, true, 38186532691599284137919223595970592768000000000⟩,
      ⟨24, false, 416044699559146822387940019872464896000000000⟩,
      ⟨26, false, 770441258540034653191142231475486720000000⟩, ⟨28, true, 9673230461996982918272572635217920000000⟩]⟩,
  ⟨4, 1, 9,
    [⟨9, false, 62282291409321984000⟩, ⟨11, true, 546335889555456000⟩, ⟨13, false, 1339058552832000⟩],
    [⟨1, false, 145809022453629380266739699621560320000000⟩, ⟨3, true, 9388654366552414160045654694948765696000000⟩,
      ⟨5, true, 7209763681267534575531211547062409625600000000⟩,
      ⟨7, false, 700747697492082975868888402063455053414400000000⟩,
      ⟨9, false, 232015874023369405701704949159387847458816000000000⟩,
      ⟨11, true, 40492625195781607816458316276821974738534400000000000⟩,
      ⟨13, false, 1549630606099420161101731353890143886590869504000000000⟩]⟩,
  ⟨4, 0, 10,
    [⟨14, false, 535623421132800⟩, ⟨16, true, 85699747381248000⟩, ⟨18, false, 6556030674665472000⟩],
    [⟨14, false, 11666852786566883429220705825964402133906227200000000000⟩,
      ⟨16, true, 294240314044045081399400756037534171172700160000000000⟩,
      ⟨18, false, 1031925524861991770337057183088340065320960000000000⟩,
      ⟨20, false, 12794126479897732273458185769469278683136000000000⟩,
      ⟨22, true, 60543058365937068785688956713316646912000000000⟩,
      ⟨24, true, 239157311972147476861361264070230016000000000⟩,
      ⟨26, false, 1339236720738832226066640931871784960000000⟩,
      ⟨28, false, 3600039359016698234120228799774720000000⟩]⟩,
  ⟨3, 11, 0,
    [⟨0, true, 304888344611713860501504000000⟩, ⟨2, true, 3226331689012845084672000000⟩,
      ⟨4, true, 15511210043330985984000000⟩, ⟨6, true, 35968023288883445760000⟩, ⟨8, false, 26761922089943040000⟩,
      ⟨10, false, 563408886104064000⟩, ⟨12, false, 2071356198912000⟩],
    [⟨0, true, 62807988161627957651446465466204160000000⟩, ⟨2, true, 7879870345783169604876951832032706560000000⟩,
      ⟨4, true, 236550333353186895766152548913355161600000000⟩,
      ⟨6, false, 71094263528210396457175015645916430336000000000⟩,
      ⟨8, false, 8093577000815211826803661017187948167168000000000⟩,
      ⟨10, false, 152211084207470941488068850570696201338880000000000⟩,
      ⟨12, true, 6301538886189296977606050413626822735429632000000000⟩]⟩,
  ⟨3, 10, 1,
    [⟨15, false, 94152554496000⟩, ⟨17, false, 44816615940096000⟩, ⟨19, false, 6082255020441600000⟩,
      ⟨21, true, 1430546380807864320000⟩, ⟨23, true, 930672602599859159040000⟩,
      ⟨25, true, 217156940606633803776000000⟩, ⟨27, true, 21777738900836704321536000000⟩],
    [⟨15, true, 50412311089514375820848403309014581883437056000000000⟩,
      ⟨17, false, 1184560378861670915227735819441359261007872000000000⟩,
      ⟨19, false, 84941324855717143044038422029003065917440000000000⟩,
      ⟨21, false, 974741113115438452143298053466698547200000000000⟩,
      ⟨23, true, 1293076532233668913168286768570774323200000000⟩,
      ⟨25, true, 107169321162244942778723424794692288512000000⟩,
      ⟨27, true, 1025235359184701955358712587490426880000000⟩]⟩,
  ⟨3, 9, 2,
    [⟨2, false, 1613165844506422542336000000⟩, ⟨4, false, 14890761641597746544640000⟩,
      ⟨6, false, 53952034933325168640000⟩, ⟨8, false, 19463216065413120000⟩, ⟨10, true, 691456360218624000⟩,
      ⟨12, true, 3012881743872000⟩],
    [⟨0, true, 31443449487987711336176335567454208000000⟩, ⟨2, false, 2466174693316866880937570389381349376000000⟩,
      ⟨4, false, 814589432517690467484840517909767782400000000⟩,
      ⟨6, false, 15606057847655940685721344897884094464000000000⟩,
      ⟨8, true, 10666556938192274800564824868940274047385600000000⟩,
      ⟨10, true, 821939854720343084035571793081759487229952000000000⟩,
      ⟨12, true, 5753578983042401588249002551572316410609664000000000⟩]⟩,
  ⟨3, 8, 3,
    [⟨15, true, 146459529216000⟩, ⟨17, true, 62600987344896000⟩, ⟨19, true, 4865804016353280000⟩,
      ⟨21, false, 2861092761615728640000⟩, ⟨23, false, 1034080669555399065600000⟩,
      ⟨25, false, 124089680346647887872000000⟩],
    [⟨15, true, 46028631864339212705992020412578531284877312000000000⟩,
      ⟨17, true, 7566681603749040744209822683370315279499264000000000⟩,
      ⟨19, true, 128295565558773881796058032717870095400960000000000⟩,
      ⟨21, true, 82299005061315004851465798240900533452800000000⟩,
      ⟨23, false, 10114335317335240842116376321392954572800000000⟩,
      ⟨25, false, 48352059663473078801885225420152897536000000⟩,
      ⟨27, true, 394538391103737831281698875918778368000000⟩]⟩,
  ⟨3, 7, 4,
    [⟨4, true, 9927174427731831029760000⟩, ⟨6, true, 71936046577766891520000⟩, ⟨8, true, 116779296392478720000⟩,
      ⟨10, false, 819503834333184000⟩, ⟨12, false, 4686704934912000⟩],
    [⟨0, false, 19350635113733443457603608101519360000000⟩, ⟨2, false, 2947520959149435843001811053270007808000000⟩,
      ⟨4, true, 455592449633988166118218503279555379200000000⟩,
      ⟨6, true, 102306379223522277828617705441684619264000000000⟩,
      ⟨8, false, 3711028755832302366001678632335085404160000000000⟩,
      ⟨10, false, 1491668625233215226583074735592822773121024000000000⟩,
      ⟨12, false, 51782210847381614294241022964150847695486976000000000⟩]⟩,
  ⟨3, 6, 5,
    [⟨15, false, 251073478656000⟩, ⟨17, false, 91055981592576000⟩, ⟨21, true, 4904730448484106240000⟩,
      ⟨23, true, 827264535644319252480000⟩],
    [⟨15, false, 414257686779052914353928183713206781563895808000000000⟩,
      ⟨17, false, 14948023828492513930254761531045724007956480000000000⟩,
      ⟨19, false, 76364725064460266464834542523161979650048000000000⟩,
      ⟨21, true, 1037012343938928333114754792421981159424000000000⟩,
      ⟨23, true, 7691161117858342294040746070695634534400000000⟩,
      ⟨25, false, 29205923476262902636659173626918993920000000⟩,
      ⟨27, false, 325492613057998501795372940333678592000000⟩]⟩,
  ⟨3, 5, 6,
    [⟨6, false, 71936046577766891520000⟩, ⟨8, false, 311411457046609920000⟩, ⟨10, true, 819503834333184000⟩,
      ⟨12, true, 8034351316992000⟩],
    [⟨0, false, 4834993634775092299541846830350336000000⟩, ⟨2, true, 2947520959149435843001811053270007808000000⟩,
      ⟨4, true, 262401516133416436615025525980869427200000000⟩,
      ⟨6, false, 102306379223522277828617705441684619264000000000⟩,
      ⟨8, false, 10200027608887642503124613840875291882291200000000⟩,
      ⟨10, true, 1491668625233215226583074735592822773121024000000000⟩,
      ⟨12, true, 143839474576060039706225063789307910265241600000000000⟩]⟩,
  ⟨3, 4, 7,
    [⟨15, true, 502146957312000⟩, ⟨17, true, 136583972388864000⟩, ⟨19, false, 15570572852330496000⟩,
      ⟨21, false, 6539640597978808320000⟩],
    [⟨15, true, 1150715796608480317649800510314463282121932800000000000⟩,
      ⟨17, true, 17655590408747761736489586261197402318831616000000000⟩,
      ⟨19, false, 62745838582739182226428382208941793214464000000000⟩,
      ⟨21, false, 1368227971670355591903476041784132999577600000000⟩,
      ⟨23, true, 924766471350512938758182280429463142400000000⟩,
      ⟨25, true, 43565802791610994691324054212127490048000000⟩,
      ⟨27, false, 13106189421120998804663428712497152000000⟩]⟩,
  ⟨3, 3, 8,
    [⟨8, true, 622822914093219840000⟩, ⟨12, false, 16068702633984000⟩],
    [⟨0, true, 9669987269550184599083693660700672000000⟩, ⟨4, false, 524803032266832873230051051961738854400000000⟩,
      ⟨8, true, 20400055217775285006249227681750583764582400000000⟩,
      ⟨12, false, 287678949152120079412450127578615820530483200000000000⟩]⟩,
  ⟨3, 2, 9,
    [⟨15, false, 1339058552832000⟩, ⟨17, false, 182111963185152000⟩, ⟨19, true, 62282291409321984000⟩],
    [⟨15, false, 2301431593216960635299601020628926564243865600000000000⟩,
      ⟨17, false, 8461145563297649394483827281723994721484800000000000⟩,
      ⟨19, true, 204000552177752850062492276817505837645824000000000⟩,
      ⟨21, true, 485715600423221071577362563851204375347200000000⟩,
      ⟨23, false, 6297636387201994478760612623540866252800000000⟩,
      ⟨25, false, 10496060645336657464601021039234777088000000⟩,
      ⟨27, true, 135379821773702584387171711249809408000000⟩]⟩,
  ⟨3, 1, 10,
    [⟨10, false, 6556030674665472000⟩, ⟨12, true, 42849873690624000⟩],
    [⟨0, false, 1094203636545013538641518060896256000000⟩, ⟨2, false, 1390394785944077212709659026112118784000000⟩,
      ⟨4, true, 90479139730803392971055419736299929600000000⟩,
      ⟨6, true, 91902340658418317371470142176428556288000000000⟩,
      ⟨8, false, 7372577128253507367123334882905703002931200000000⟩,
      ⟨10, false, 3866161538869761913796948804495683514007552000000000⟩,
      ⟨12, true, 481382774914547599550166546814883806354341888000000000⟩]⟩,
  ⟨3, 0, 11,
    [⟨15, true, 8034351316992000⟩, ⟨17, false, 728447852740608000⟩],
    [⟨15, true, 3851062199316380796401332374519070450834735104000000000⟩,
      ⟨17, false, 20637136940576457237402934922376333792116736000000000⟩,
      ⟨19, false, 175466864410686702981679369999996069871616000000000⟩,
      ⟨21, true, 835388196569898934726092161966768809574400000000⟩,
      ⟨23, true, 3083626647604821528075928997192741683200000000⟩,
      ⟨25, false, 16265549422656935905804458944731545600000000⟩,
      ⟨27, false, 41066902503187174961530494076846080000000⟩]⟩,
  ⟨2, 12, 0,
    [⟨14, true, 23015068876800⟩, ⟨16, true, 3452260331520000⟩, ⟨18, false, 140852221526016000⟩,
      ⟨20, false, 294381142989373440000⟩, ⟨22, false, 112400072777760768000000⟩,
      ⟨24, false, 26679281274529295892480000⟩, ⟨26, false, 4032914611266056355840000000⟩,
      ⟨28, false, 304888344611713860501504000000⟩],
    [⟨14, false, 207690531555929509005479628585273750926131200000000000⟩,
      ⟨16, false, 5843557638725194373586229968035141249925120000000000⟩,
      ⟨18, true, 249911148939592025507891641624522370580480000000000⟩,
      ⟨20, true, 6902561305582533470084303089581969899520000000000⟩,
      ⟨22, true, 35275193486727019680353331046344818688000000000⟩,
      ⟨24, false, 416937250597429846608486976897155072000000000⟩,
      ⟨26, false, 6785248486854964006766471772918251520000000⟩,
      ⟨28, false, 43967794740379535495882548256440320000000⟩]⟩,
  ⟨2, 11, 1,
    [⟨1, true, 21777738900836704321536000000⟩, ⟨3, true, 279201780779957747712000000⟩,
      ⟨5, true, 1757937138244178411520000⟩, ⟨7, true, 6744004366665646080000⟩, ⟨9, true, 13380961044971520000⟩,
      ⟨11, false, 23475370254336000⟩, ⟨13, false, 345226033152000⟩],
    [⟨1, true, 733388309340880858881788445563289600000000⟩, ⟨3, true, 97707307828117466948077322838158082048000000⟩,
      ⟨5, true, 4384131468242816585219374405349749555200000000⟩,
      ⟨7, false, 589332684505190269914552290743462920192000000000⟩,
      ⟨9, false, 76930215160587093492034798314755897425920000000000⟩,
      ⟨11, false, 1555239136872806031557503490831172363091968000000000⟩,
      ⟨13, true, 50412311089514375820848403309014581883437056000000000⟩]⟩,
  ⟨2, 10, 2,
    [⟨14, false, 29291905843200⟩, ⟨16, false, 4017175658496000⟩, ⟨18, true, 384142422343680000⟩,
      ⟨20, true, 389264321308262400000⟩, ⟨22, true, 116896075688871198720000⟩,
      ⟨24, true, 19854348855463662059520000⟩, ⟨26, true, 1613165844506422542336000000⟩],
    [⟨14, true, 366172156680488960128127846913409470273945600000000000⟩,
      ⟨16, false, 16499456862282901760714061086216869411553280000000000⟩,
      ⟨18, false, 771549679125071193015847154766978220032000000000000⟩,
      ⟨20, false, 5391979366759118222455575518371525951488000000000⟩,
      ⟨22, true, 48590571256703244595066786861226655744000000000⟩,
      ⟨24, true, 658772215684426396131489112041455616000000000⟩,
      ⟨26, true, 341101323201841464025477775496314880000000⟩, ⟨28, false, 34365401662373268785589892845404160000000⟩]⟩,
  ⟨2, 9, 3,
    [⟨3, false, 124089680346647887872000000⟩, ⟨5, false, 1447712937377558691840000⟩,
      ⟨7, false, 7765823210099834880000⟩, ⟨9, false, 20436376868683776000⟩, ⟨11, true, 17072996548608000⟩,
      ⟨13, true, 439378587648000⟩],
    [⟨1, true, 485878194559918086131238519969939456000000⟩,
      ⟨3, false, 15768482362765460102491604703762186240000000⟩,
      ⟨5, false, 9435811063089330377519796108441472204800000000⟩,
      ⟨7, false, 425632277709745699937335385994350611660800000000⟩,
      ⟨9, true, 85035573205071614215238464660935385546752000000000⟩,
      ⟨11, true, 7228235781217134768430469592101355490639872000000000⟩,
      ⟨13, true, 46028631864339212705992020412578531284877312000000000⟩]⟩,
  ⟨2, 8, 4,
    [⟨14, true, 39055874457600⟩, ⟨16, true, 4686704934912000⟩, ⟨18, false, 819503834333184000⟩,
      ⟨20, false, 506043617700741120000⟩, ⟨22, false, 107904069866650337280000⟩,
      ⟨24, false, 9927174427731831029760000⟩],
    [⟨14, true, 435643553995364335962713367276427867796275200000000000⟩,
      ⟨16, true, 63935395341346244322766986709090368969768960000000000⟩,
      ⟨18, true, 901382866508876276530237986327766279127040000000000⟩,
      ⟨20, false, 3139409039198565543995516009051842412544000000000⟩,
      ⟨22, false, 90232319707931150287020256560049815552000000000⟩,
      ⟨24, false, 121363758062639786871774546084495360000000000⟩,
      ⟨26, true, 3482452981456212742702552177358929920000000⟩, ⟨28, true, 12346085600188142933658660105093120000000⟩]⟩,
  ⟨2, 7, 5,
    [⟨5, true, 827264535644319252480000⟩, ⟨7, true, 8174550747473510400000⟩, ⟨9, true, 31141145704660992000⟩,
      ⟨13, false, 585838116864000⟩],
    [⟨1, false, 216325170126537915017528086508863488000000⟩,
      ⟨3, false, 47429621461622429281387913758101209088000000⟩,
      ⟨5, true, 3243057673357373692796498008013694566400000000⟩,
      ⟨7, true, 1213727998978561779114834727295080464384000000000⟩,
      ⟨9, true, 2144149947814219144800969876460271566848000000000⟩,
      ⟨11, false, 11902011425705360148240583709625085908221952000000000⟩,
      ⟨13, false, 414257686779052914353928183713206781563895808000000000⟩]⟩,
  ⟨2, 6, 6,
    [⟨14, false, 55794106368000⟩, ⟨16, false, 5356234211328000⟩, ⟨18, true, 1639007668666368000⟩,
      ⟨20, true, 622822914093219840000⟩, ⟨22, true, 71936046577766891520000⟩],
    [⟨14, false, 3158053936272043126480533446502211320702566400000000000⟩,
      ⟨16, false, 111371333820409586884819912331963868527984640000000000⟩,
      ⟨18, false, 247605368289333192057499454725218757509120000000000⟩,
      ⟨20, true, 11670797445156249310446607536475210776576000000000⟩,
      ⟨22, true, 47426035574754338812040429841376346112000000000⟩,
      ⟨24, false, 416044699559146822387940019872464896000000000⟩,
      ⟨26, false, 2064821568124130277404654041080791040000000⟩, ⟨28, true, 9673230461996982918272572635217920000000⟩]⟩,
  ⟨2, 5, 7,
    [⟨7, false, 6539640597978808320000⟩, ⟨9, false, 46711718556991488000⟩, ⟨11, false, 45527990796288000⟩,
      ⟨13, true, 836911595520000⟩],
    [⟨1, false, 122273632352581585582508282537312256000000⟩,
      ⟨3, true, 33069742146274337226723033172892712960000000⟩,
      ⟨5, true, 5372869915851481540002430343111403110400000000⟩,
      ⟨7, false, 882512371247134520326113477932928624230400000000⟩,
      ⟨9, false, 141254713595013667836063894608564044431360000000000⟩,
      ⟨11, true, 9194444845450112342005758979473407597346816000000000⟩,
      ⟨13, true, 1150715796608480317649800510314463282121932800000000000⟩]⟩,
  ⟨2, 4, 8,
    [⟨14, true, 89270570188800⟩, ⟨16, true, 5356234211328000⟩, ⟨18, false, 3278015337332736000⟩,
      ⟨20, false, 622822914093219840000⟩],
    [⟨14, true, 8602874700825400707516173604953778226515148800000000000⟩,
      ⟨16, true, 111371333820409586884819912331963868527984640000000000⟩,
      ⟨18, false, 1059949628149752976887977608479876285726720000000000⟩,
      ⟨20, false, 11670797445156249310446607536475210776576000000000⟩,
      ⟨22, true, 38186532691599284137919223595970592768000000000⟩,
      ⟨24, true, 416044699559146822387940019872464896000000000⟩,
      ⟨26, false, 770441258540034653191142231475486720000000⟩, ⟨28, false, 9673230461996982918272572635217920000000⟩]⟩,
  ⟨2, 3, 9,
    [⟨9, true, 62282291409321984000⟩, ⟨11, true, 182111963185152000⟩, ⟨13, false, 1339058552832000⟩],
    [⟨1, true, 135379821773702584387171711249809408000000⟩, ⟨3, true, 10496060645336657464601021039234777088000000⟩,
      ⟨5, false, 6297636387201994478760612623540866252800000000⟩,
      ⟨7, false, 485715600423221071577362563851204375347200000000⟩,
      ⟨9, true, 204000552177752850062492276817505837645824000000000⟩,
      ⟨11, true, 8461145563297649394483827281723994721484800000000000⟩,
      ⟨13, false, 2301431593216960635299601020628926564243865600000000000⟩]⟩,
  ⟨2, 2, 10,
    [⟨14, false, 178541140377600⟩, ⟨18, true, 6556030674665472000⟩],
    [⟨14, false, 17205749401650801415032347209907556453030297600000000000⟩,
      ⟨18, true, 2119899256299505953775955216959752571453440000000000⟩,
      ⟨22, false, 76373065383198568275838447191941185536000000000⟩,
      ⟨26, true, 1540882517080069306382284462950973440000000⟩]⟩,
  ⟨2, 1, 11,
    [⟨11, false, 728447852740608000⟩, ⟨13, true, 2678117105664000⟩],
    [⟨1, true, 10429200679926795879567988371750912000000⟩, ⟨3, false, 19884715011889071624646675734183542784000000⟩,
      ⟨5, false, 912127294065540096770598923521543372800000000⟩,
      ⟨7, true, 1186463297915304047446250965914659428761600000000⟩,
      ⟨9, true, 28015321845616555639212672341882009812992000000000⟩,
      ⟨11, false, 48953770759079257210942143558545969460019200000000000⟩,
      ⟨13, true, 3851062199316380796401332374519070450834735104000000000⟩]⟩,
  ⟨2, 0, 12,
    [⟨14, true, 714164561510400⟩, ⟨16, false, 85699747381248000⟩],
    [⟨14, true, 28872602188217684844253053035871958586936524800000000000⟩,
      ⟨16, false, 294240314044045081399400756037534171172700160000000000⟩,
      ⟨18, false, 1087973731437514183438898033871412506132480000000000⟩,
      ⟨20, true, 12794126479897732273458185769469278683136000000000⟩,
      ⟨22, true, 15830007017261499490149490478624538624000000000⟩,
      ⟨24, false, 239157311972147476861361264070230016000000000⟩,
      ⟨26, false, 201645796341237080315643531079188480000000⟩, ⟨28, true, 3600039359016698234120228799774720000000⟩]⟩,
  ⟨1, 13, 0,
    [⟨0, false, 304888344611713860501504000000⟩, ⟨2, false, 4839497533519267627008000000⟩,
      ⟨4, false, 40329146112660563558400000⟩, ⟨6, false, 233792151377742397440000⟩,
      ⟨8, false, 1043714961507778560000⟩, ⟨10, false, 3662157759676416000⟩, ⟨12, false, 8975876861952000⟩],
    [⟨0, false, 25424680827687066217650544227385344000000⟩, ⟨2, false, 5841397906745242012520559140986159104000000⟩,
      ⟨4, false, 810006806835419612495190411896369971200000000⟩,
      ⟨6, false, 57222212108071782514311597958908346368000000000⟩,
      ⟨8, false, 756343003569631148880342121256865025228800000000⟩,
      ⟨10, true, 91326650524482564892841310342417720803328000000000⟩,
      ⟨12, true, 1369899757867238473392619655136265812049920000000000⟩]⟩,
  ⟨1, 12, 1,
    [⟨15, false, 345226033152000⟩, ⟨17, false, 211278332289024000⟩, ⟨19, false, 66904805224857600000⟩,
      ⟨21, false, 15736010188886507520000⟩, ⟨23, false, 2792017807799577477120000⟩,
      ⟨25, false, 341246620953281691648000000⟩, ⟨27, false, 21777738900836704321536000000⟩],
    [⟨15, true, 10959198062937907787140957241090126496399360000000000⟩,
      ⟨17, true, 862231024069379509723590018232826128760832000000000⟩,
      ⟨19, false, 5160097127157296623202334098294499704832000000000⟩,
      ⟨21, false, 647452499940447492154578580435060024934400000000⟩,
      ⟨23, false, 10964042814809204535036015333167490662400000000⟩,
      ⟨25, false, 92138308924396538412671077070747467776000000⟩,
      ⟨27, false, 464119566897716001353043899572027392000000⟩]⟩,
  ⟨1, 11, 2,
    [⟨2, true, 1613165844506422542336000000⟩, ⟨4, true, 24817936069329577574400000⟩,
      ⟨6, true, 197824128088858951680000⟩, ⟨8, true, 1070476883597721600000⟩, ⟨10, true, 4225566645780480000⟩,
      ⟨12, true, 11047233060864000⟩],
    [⟨0, false, 37383307333940891433795921238818816000000⟩, ⟨2, false, 2038472439037927592356392691046547456000000⟩,
      ⟨4, true, 573456473482232716729037862983014809600000000⟩,
      ⟨6, true, 128316475636282178971486613604824776704000000000⟩,
      ⟨8, true, 8849920004384842975684003138444813192396800000000⟩,
      ⟨10, true, 60884433682988376595227540228278480535552000000000⟩,
      ⟨12, false, 7671438644056535450998670068763088547479552000000000⟩]⟩,
  ⟨1, 10, 3,
    [⟨15, true, 439378587648000⟩, ⟨17, true, 256094948229120000⟩, ⟨19, true, 72987060245299200000⟩,
      ⟨21, true, 14305463808078643200000⟩, ⟨23, true, 1861345205199718318080000⟩,
      ⟨25, true, 124089680346647887872000000⟩],
    [⟨15, false, 61371509152452283607989360550104708379836416000000000⟩,
      ⟨17, true, 322329354792291405504145801208533132247040000000000⟩,
      ⟨19, true, 90101421982874439667240756127297565622272000000000⟩,
      ⟨21, true, 1622193613055885944297876633901758572134400000000⟩,
      ⟨23, true, 9670966282575535621867728564596716339200000000⟩,
      ⟨25, false, 15031012237848404366052347723944820736000000⟩,
      ⟨27, false, 561115792286985954005668687918399488000000⟩]⟩,
  ⟨1, 9, 4,
    [⟨4, false, 9927174427731831029760000⟩, ⟨6, false, 143872093155533783040000⟩,
      ⟨8, false, 1051013667532308480000⟩, ⟨10, false, 4917023005999104000⟩, ⟨12, false, 14060114804736000⟩],
    [⟨0, true, 5939857845953180097619585671364608000000⟩, ⟨2, true, 4504647132354794473293963080427896832000000⟩,
      ⟨4, true, 241132959035457750755802654926752972800000000⟩,
      ⟨6, false, 112710417788626238285765268706940682240000000000⟩,
      ⟨8, false, 19516476942577117776248828007385087239782400000000⟩,
      ⟨10, false, 882824288403331460630799333310037967765504000000000⟩,
      ⟨12, true, 1917859661014133862749667517190772136869888000000000⟩]⟩,
  ⟨1, 8, 5,
    [⟨15, false, 585838116864000⟩, ⟨17, false, 318695935574016000⟩, ⟨19, false, 77852864261652480000⟩,
      ⟨21, false, 11444371046462914560000⟩, ⟨23, false, 827264535644319252480000⟩],
    [⟨15, true, 15342877288113070901997340137526177094959104000000000⟩,
      ⟨17, false, 7889010958541332149713968484578848411746304000000000⟩,
      ⟨19, false, 218396987541648321463298788845167661023232000000000⟩,
      ⟨21, false, 1704492618117200949149342432142659105587200000000⟩,
      ⟨23, true, 443369034759705220248647756796238233600000000⟩,
      ⟨25, true, 63383071901321483167937573144097718272000000⟩,
      ⟨27, true, 166577401183248122723969811999621120000000⟩]⟩,
  ⟨1, 7, 6,
    [⟨6, true, 71936046577766891520000⟩, ⟨8, true, 934234371139829760000⟩, ⟨10, true, 5736526840332288000⟩,
      ⟨12, true, 18746819739648000⟩],
    [⟨0, true, 13410777267780263359984022430154752000000⟩, ⟨2, false, 1557126173205358630292152027157889024000000⟩,
      ⟨4, false, 696725408669445916874021158206308352000000000⟩,
      ⟨6, true, 10404038565103960457147563265256062976000000000⟩,
      ⟨8, true, 23227505698409420142250506639720172643942400000000⟩,
      ⟨10, true, 2374492913636546687213874068902860740886528000000000⟩,
      ⟨12, true, 49864351186367480431491355446960075558617088000000000⟩]⟩,
  ⟨1, 6, 7,
    [⟨15, true, 836911595520000⟩, ⟨17, true, 409751917166592000⟩, ⟨19, true, 77852864261652480000⟩,
      ⟨21, true, 6539640597978808320000⟩],
    [⟨15, true, 398914809490939843451930843575680604468936704000000000⟩,
      ⟨17, true, 22837034787033846079968730015624572419702784000000000⟩,
      ⟨19, true, 294761712606108587928133331368329640673280000000000⟩,
      ⟨21, true, 667480274178272616034587639720677946163200000000⟩,
      ⟨23, false, 8134530152618047514289393827491872768000000000⟩,
      ⟨25, false, 34177148425058580531278399517178724352000000⟩,
      ⟨27, true, 158915211874750379071403128334057472000000⟩]⟩,
  ⟨1, 5, 8,
    [⟨8, false, 622822914093219840000⟩, ⟨10, false, 6556030674665472000⟩, ⟨12, false, 26781171056640000⟩],
    [⟨0, false, 8575783633005171060442175599804416000000⟩, ⟨2, false, 1390394785944077212709659026112118784000000⟩,
      ⟨4, true, 434323892536029480258995632225438924800000000⟩,
      ⟨6, true, 91902340658418317371470142176428556288000000000⟩,
      ⟨8, false, 13027478089521777639125892798844880761651200000000⟩,
      ⟨10, false, 3866161538869761913796948804495683514007552000000000⟩,
      ⟨12, false, 193703825762427520137716419236267985823858688000000000⟩]⟩,
  ⟨1, 4, 9,
    [⟨15, false, 1339058552832000⟩, ⟨17, false, 546335889555456000⟩, ⟨19, false, 62282291409321984000⟩],
    [⟨15, false, 1549630606099420161101731353890143886590869504000000000⟩,
      ⟨17, false, 40492625195781607816458316276821974738534400000000000⟩,
      ⟨19, false, 232015874023369405701704949159387847458816000000000⟩,
      ⟨21, true, 700747697492082975868888402063455053414400000000⟩,
      ⟨23, true, 7209763681267534575531211547062409625600000000⟩,
      ⟨25, false, 9388654366552414160045654694948765696000000⟩,
      ⟨27, false, 145809022453629380266739699621560320000000⟩]⟩,
  ⟨1, 3, 10,
    [⟨10, true, 6556030674665472000⟩, ⟨12, true, 42849873690624000⟩],
    [⟨0, false, 1094203636545013538641518060896256000000⟩, ⟨2, true, 1390394785944077212709659026112118784000000⟩,
      ⟨4, true, 90479139730803392971055419736299929600000000⟩,
      ⟨6, false, 91902340658418317371470142176428556288000000000⟩,
      ⟨8, false, 7372577128253507367123334882905703002931200000000⟩,
      ⟨10, true, 3866161538869761913796948804495683514007552000000000⟩,
      ⟨12, true, 481382774914547599550166546814883806354341888000000000⟩]⟩,
  ⟨1, 2, 11,
    [⟨15, true, 2678117105664000⟩, ⟨17, true, 728447852740608000⟩],
    [⟨15, true, 3851062199316380796401332374519070450834735104000000000⟩,
      ⟨17, true, 48953770759079257210942143558545969460019200000000000⟩,
      ⟨19, true, 28015321845616555639212672341882009812992000000000⟩,
      ⟨21, false, 1186463297915304047446250965914659428761600000000⟩,
      ⟨23, false, 912127294065540096770598923521543372800000000⟩,
      ⟨25, true, 19884715011889071624646675734183542784000000⟩,
      ⟨27, true, 10429200679926795879567988371750912000000⟩]⟩,
  ⟨1, 1, 12,
    [⟨12, false, 85699747381248000⟩],
    [⟨0, true, 2188407273090027077283036121792512000000⟩, ⟨4, false, 180958279461606785942110839472599859200000000⟩,
      ⟨8, true, 14745154256507014734246669765811406005862400000000⟩,
      ⟨12, false, 962765549829095199100333093629767612708683776000000000⟩]⟩,
  ⟨1, 0, 13,
    [⟨15, false, 10712468422656000⟩],
    [⟨15, false, 7702124398632761592802664749038140901669470208000000000⟩,
      ⟨17, false, 28316633818502799973539208636169635667902464000000000⟩,
      ⟨19, true, 147451542565070147342466697658114060058624000000000⟩,
      ⟨21, true, 351075101345405112720158803947890619187200000000⟩,
      ⟨23, false, 2171499353539281431305330073671198310400000000⟩,
      ⟨25, false, 3619165589232135718842216789451997184000000⟩,
      ⟨27, true, 30637701823260379081962505705095168000000⟩]⟩,
  ⟨0, 14, 0,
    [⟨14, true, 299195895398400⟩, ⟨16, true, 62831138033664000⟩, ⟨18, true, 12817552158867456000⟩,
      ⟨20, true, 2435334910184816640000⟩, ⟨22, true, 409136264911049195520000⟩,
      ⟨24, true, 56460804557724788981760000⟩, ⟨26, true, 5646080455772478898176000000⟩,
      ⟨28, true, 304888344611713860501504000000⟩],
    [⟨14, true, 44143283710493728394892882730667940092313600000000000⟩,
      ⟨16, false, 3093648161678044080133886453665663014666240000000000⟩,
      ⟨18, false, 78573909851127939886441445876269276200960000000000⟩,
      ⟨20, true, 1392336777271680198890666704579489431552000000000⟩,
      ⟨22, true, 52244141995125361090165961907020759040000000000⟩,
      ⟨24, true, 604141137198349861697231859348406272000000000⟩,
      ⟨26, true, 3688753239755329329942526493322117120000000⟩, ⟨28, true, 13002729042795391379058911776604160000000⟩]⟩,
  ⟨0, 13, 1,
    [⟨1, false, 21777738900836704321536000000⟩, ⟨3, false, 403291461126605635584000000⟩,
      ⟨5, false, 4032914611266056355840000⟩, ⟨7, false, 29224018922217799680000⟩, ⟨9, false, 173952493584629760000⟩,
      ⟨11, false, 915539439919104000⟩, ⟨13, false, 4487938430976000⟩],
    [⟨1, false, 247771496277521852741171338794762240000000⟩,
      ⟨3, false, 59738036650979753912863460594892668928000000⟩,
      ⟨5, false, 8476120549240866164848554552345388646400000000⟩,
      ⟨7, false, 611436166437131723160276574660923595161600000000⟩,
      ⟨9, false, 9966762944235326354404508326842800799744000000000⟩,
      ⟨11, true, 781648685371306658347553567930692845699072000000000⟩,
      ⟨13, true, 10959198062937907787140957241090126496399360000000000⟩]⟩,
  ⟨0, 12, 2,
    [⟨14, false, 322210964275200⟩, ⟨16, false, 66283398365184000⟩, ⟨18, false, 12676699937341440000⟩,
      ⟨20, false, 2140953767195443200000⟩, ⟨22, false, 296736192133288427520000⟩,
      ⟨24, false, 29781523283195493089280000⟩, ⟨26, false, 1613165844506422542336000000⟩],
    [⟨14, true, 163547247845435780610586745854605810833817600000000000⟩,
      ⟨16, true, 8937205800403238453720116421700804264591360000000000⟩,
      ⟨18, false, 171337239088464085621450195748253094379520000000000⟩,
      ⟨20, false, 8294898082854213668974969794161459331072000000000⟩,
      ⟨22, false, 87519335481852380770519292953365577728000000000⟩,
      ⟨24, false, 187203886600920015088744882451251200000000000⟩,
      ⟨26, true, 3096495247099634676823945279596134400000000⟩, ⟨28, true, 30965065697584144116823636479836160000000⟩]⟩,
  ⟨0, 11, 3,
    [⟨3, true, 124089680346647887872000000⟩, ⟨5, true, 2274977473021877944320000⟩,
      ⟨7, true, 22480014555552153600000⟩, ⟨9, true, 160571532539658240000⟩, ⟨11, true, 939014810173440000⟩,
      ⟨13, true, 4833164464128000⟩],
    [⟨1, false, 485616813063359006140617106768527360000000⟩,
      ⟨3, false, 37969271177137713035213862243265413120000000⟩,
      ⟨5, true, 4091989080998049579629180146995639091200000000⟩,
      ⟨7, true, 1200768850942321993074828865404386515353600000000⟩,
      ⟨9, true, 86896978104822419846439306641598698225664000000000⟩,
      ⟨11, true, 773590451501499373209949922900479517392896000000000⟩,
      ⟨13, false, 61371509152452283607989360550104708379836416000000000⟩]⟩,
  ⟨0, 10, 4,
    [⟨14, true, 351502870118400⟩, ⟨16, true, 70300574023680000⟩, ⟨18, true, 12292557514997760000⟩,
      ⟨20, true, 1751689445887180800000⟩, ⟨22, true, 179840116444417228800000⟩,
      ⟨24, true, 9927174427731831029760000⟩],
    [⟨14, false, 529719404525924740738714592768015281107763200000000000⟩,
      ⟨16, true, 7562251061879663306993944664516065146961920000000000⟩,
      ⟨18, true, 942886918213535278637297350515231314411520000000000⟩,
      ⟨20, true, 13686877449613331891430545312532985282560000000000⟩,
      ⟨22, true, 38928764225149136175452506092138921984000000000⟩,
      ⟨24, false, 471568329083506381042744229590204416000000000⟩,
      ⟨26, false, 3437596570301476140849423055092449280000000⟩, ⟨28, true, 3400335964789124668766256365568000000000⟩]⟩,
  ⟨0, 9, 5,
    [⟨5, false, 827264535644319252480000⟩, ⟨7, false, 14714191345452318720000⟩, ⟨9, false, 140135155670974464000⟩,
      ⟨11, false, 956087806722048000⟩, ⟨13, false, 5272543051776000⟩],
    [⟨1, false, 261381496559079990621413201412096000000⟩, ⟨3, true, 53737753539903173137705466947027599360000000⟩,
      ⟨5, true, 5343821982091280797890615961445833113600000000⟩,
      ⟨7, false, 775136573232576293137493479410035903692800000000⟩,
      ⟨9, false, 171932551309894034061677771302534083772416000000000⟩,
      ⟨11, false, 8001826232718634141640419515001835008032768000000000⟩,
      ⟨13, true, 15342877288113070901997340137526177094959104000000000⟩]⟩,
  ⟨0, 8, 6,
    [⟨14, false, 390558744576000⟩, ⟨16, false, 74987278958592000⟩, ⟨18, false, 11473053680664576000⟩,
      ⟨20, false, 1245645828186439680000⟩, ⟨22, false, 71936046577766891520000⟩],
    [⟨14, true, 94075850530560404776001225491587413311488000000000000⟩,
      ⟨16, false, 71497646403225907629760931373606434116730880000000000⟩,
      ⟨18, false, 1844269784722411555167535336842997593538560000000000⟩,
      ⟨20, false, 10547468410414766347435029303481142870016000000000⟩,
      ⟨22, true, 51303555482782014111567750467910893568000000000⟩,
      ⟨24, true, 592932087146146167914518775674699776000000000⟩,
      ⟨26, false, 44856411154736601853129122266480640000000⟩, ⟨28, false, 15746421564977267602424916470661120000000⟩]⟩,
  ⟨0, 7, 7,
    [⟨7, true, 6539640597978808320000⟩, ⟨9, true, 108994009966313472000⟩, ⟨11, true, 956087806722048000⟩,
      ⟨13, true, 5858381168640000⟩],
    [⟨1, true, 216586551623096995008149499710275584000000⟩, ⟨3, false, 6308132078280743856317553188926390272000000⟩,
      ⟨5, false, 8586879655448654490687113969459527680000000000⟩,
      ⟨7, false, 438591425745985485977341247885044560691200000000⟩,
      ⟨9, true, 169788401362079814916876801426073812205568000000000⟩,
      ⟨11, true, 19903837658423994289881003224626920916254720000000000⟩,
      ⟨13, true, 398914809490939843451930843575680604468936704000000000⟩]⟩,
  ⟨0, 6, 8,
    [⟨14, true, 446352850944000⟩, ⟨16, true, 80343513169920000⟩, ⟨18, true, 9834046011998208000⟩,
      ⟨20, true, 622822914093219840000⟩],
    [⟨14, true, 3063978085741482721704532221010623907391078400000000000⟩,
      ⟨16, true, 182868980223635494514580843705570302644715520000000000⟩,
      ⟨18, true, 2091875153011744747225034791568216351047680000000000⟩,
      ⟨20, false, 1123329034741482963011578232994067906560000000000⟩,
      ⟨22, false, 98729591057536352923608180309287239680000000000⟩,
      ⟨24, false, 176887387586999345526578755802234880000000000⟩,
      ⟨26, true, 2109677979278866879257783163347271680000000⟩, ⟨28, true, 6073191102980284684152343835443200000000⟩]⟩,
  ⟨0, 5, 9,
    [⟨9, false, 62282291409321984000⟩, ⟨11, false, 910559815925760000⟩, ⟨13, false, 6695292764160000⟩],
    [⟨1, false, 94312919270515409425641217172963328000000⟩,
      ⟨3, false, 26761610067993593370405479983966322688000000⟩,
      ⟨5, true, 3214009739597172950684683626348124569600000000⟩,
      ⟨7, true, 1321103796993120006303454725817973184921600000000⟩,
      ⟨9, false, 28533687767066147080812906817509767774208000000000⟩,
      ⟨11, false, 29098282503874106631886762204100328513601536000000000⟩,
      ⟨13, false, 1549630606099420161101731353890143886590869504000000000⟩]⟩,
  ⟨0, 4, 10,
    [⟨14, false, 535623421132800⟩, ⟨16, false, 85699747381248000⟩, ⟨18, false, 6556030674665472000⟩],
    [⟨14, false, 11666852786566883429220705825964402133906227200000000000⟩,
      ⟨16, false, 294240314044045081399400756037534171172700160000000000⟩,
      ⟨18, false, 1031925524861991770337057183088340065320960000000000⟩,
      ⟨20, true, 12794126479897732273458185769469278683136000000000⟩,
      ⟨22, true, 60543058365937068785688956713316646912000000000⟩,
      ⟨24, false, 239157311972147476861361264070230016000000000⟩,
      ⟨26, false, 1339236720738832226066640931871784960000000⟩, ⟨28, true, 3600039359016698234120228799774720000000⟩]⟩,
  ⟨0, 3, 11,
    [⟨11, true, 728447852740608000⟩, ⟨13, true, 8034351316992000⟩],
    [⟨1, false, 41066902503187174961530494076846080000000⟩, ⟨3, true, 16265549422656935905804458944731545600000000⟩,
      ⟨5, true, 3083626647604821528075928997192741683200000000⟩,
      ⟨7, false, 835388196569898934726092161966768809574400000000⟩,
      ⟨9, false, 175466864410686702981679369999996069871616000000000⟩,
      ⟨11, true, 20637136940576457237402934922376333792116736000000000⟩,
      ⟨13, true, 3851062199316380796401332374519070450834735104000000000⟩]⟩,
  ⟨0, 2, 12,
    [⟨14, true, 714164561510400⟩, ⟨16, true, 85699747381248000⟩],
    [⟨14, true, 28872602188217684844253053035871958586936524800000000000⟩,
      ⟨16, true, 294240314044045081399400756037534171172700160000000000⟩,
      ⟨18, false, 1087973731437514183438898033871412506132480000000000⟩,
      ⟨20, false, 12794126479897732273458185769469278683136000000000⟩,
      ⟨22, true, 15830007017261499490149490478624538624000000000⟩,
      ⟨24, true, 239157311972147476861361264070230016000000000⟩,
      ⟨26, false, 201645796341237080315643531079188480000000⟩, ⟨28, false, 3600039359016698234120228799774720000000⟩]⟩,
  ⟨0, 1, 13,
    [⟨13, false, 10712468422656000⟩],
    [⟨1, true, 30637701823260379081962505705095168000000⟩, ⟨3, true, 3619165589232135718842216789451997184000000⟩,
      ⟨5, false, 2171499353539281431305330073671198310400000000⟩,
      ⟨7, false, 351075101345405112720158803947890619187200000000⟩,
      ⟨9, true, 147451542565070147342466697658114060058624000000000⟩,
      ⟨11, true, 28316633818502799973539208636169635667902464000000000⟩,
      ⟨13, false, 7702124398632761592802664749038140901669470208000000000⟩]⟩,
  ⟨0, 0, 14,
    [⟨14, false, 1428329123020800⟩],
    [⟨14, false, 57745204376435369688506106071743917173873049600000000000⟩,
      ⟨18, true, 2175947462875028366877796067742825012264960000000000⟩,
      ⟨22, false, 31660014034522998980298980957249077248000000000⟩,
      ⟨26, true, 403291592682474160631287062158376960000000⟩]⟩]

/-- degree 14: the rows of `V` -/
def certInverse14 : List (List CertEntry) := [
  [⟨0, false, 315814391147⟩, ⟨4, true, 2136207055764600⟩, ⟨8, false, 14867245080934646400⟩,
    ⟨12, true, 25535749403724303744000⟩],
  [⟨1, false, 62897307203836⟩, ⟨3, true, 102237974780760⟩, ⟨5, true, 374405394160324800⟩,
    ⟨7, false, 2898691688375683200⟩, ⟨9, false, 2184766528345232832000⟩, ⟨11, true, 24831737876208751488000⟩,
    ⟨13, true, 2860003933217122019328000⟩],
  [⟨2, false, 2909253947793984⟩, ⟨6, true, 38558160239010048000⟩, ⟨10, false, 212078749313512553472000⟩],
  [⟨1, true, 102237974780760⟩, ⟨3, false, 514128611985900912⟩, ⟨5, true, 2581945513336425600⟩,
    ⟨7, true, 5889122978413445971200⟩, ⟨9, false, 85075290634607425152000⟩, ⟨11, false, 26055294889227400532736000⟩,
    ⟨13, true, 337846091716629443211264000⟩],
  [⟨0, true, 2136207055764600⟩, ⟨4, false, 56161737021794040000⟩, ⟨8, true, 788142734893519125120000⟩,
    ⟨12, false, 2111538073228934020070400000⟩],
  [⟨1, true, 374405394160324800⟩, ⟨3, true, 2581945513336425600⟩, ⟨5, false, 8683930327783052160000⟩,
    ⟨7, true, 76716300961217998080000⟩, ⟨9, true, 102596570494286130662400000⟩,
    ⟨11, false, 1997400537287972725708800000⟩, ⟨13, false, 202707655029977665926758400000⟩],
  [⟨2, true, 38558160239010048000⟩, ⟨6, false, 1262490656100207206400000⟩, ⟨10, true, 14017985152747584712704000000⟩],
  [⟨1, false, 2898691688375683200⟩, ⟨3, true, 5889122978413445971200⟩, ⟨5, true, 76716300961217998080000⟩,
    ⟨7, false, 168813054975049059294720000⟩, ⟨9, true, 2683870139133773836646400000⟩,
    ⟨11, true, 1508267912995256504316825600000⟩, ⟨13, false, 32772568141522808030483251200000⟩],
  [⟨0, false, 14867245080934646400⟩, ⟨4, true, 788142734893519125120000⟩, ⟨8, false, 28315173375333913633044480000⟩,
    ⟨12, true, 172055982742994742160037068800000⟩],
  [⟨1, false, 2184766528345232832000⟩, ⟨3, false, 85075290634607425152000⟩, ⟨5, true, 102596570494286130662400000⟩,
    ⟨7, true, 2683870139133773836646400000⟩, ⟨9, false, 3239904259505740809894912000000⟩,
    ⟨11, true, 89063626507780351275104256000000⟩, ⟨13, true, 13764478619439579372802965504000000⟩],
  [⟨2, false, 212078749313512553472000⟩, ⟨6, true, 14017985152747584712704000000⟩,
    ⟨10, false, 589710715328072600876630016000000⟩],
  [⟨1, true, 24831737876208751488000⟩, ⟨3, false, 26055294889227400532736000⟩,
    ⟨5, false, 1997400537287972725708800000⟩, ⟨7, true, 1508267912995256504316825600000⟩,
    ⟨9, true, 89063626507780351275104256000000⟩, ⟨11, false, 57484708269659256810302926848000000⟩,
    ⟨13, true, 2643334169239222309888483590144000000⟩],
  [⟨0, true, 25535749403724303744000⟩, ⟨4, false, 2111538073228934020070400000⟩,
    ⟨8, true, 172055982742994742160037068800000⟩, ⟨12, false, 11234170219266694817026055258112000000⟩],
  [⟨1, true, 2860003933217122019328000⟩, ⟨3, true, 337846091716629443211264000⟩,
    ⟨5, false, 202707655029977665926758400000⟩, ⟨7, false, 32772568141522808030483251200000⟩,
    ⟨9, true, 13764478619439579372802965504000000⟩, ⟨11, true, 2643334169239222309888483590144000000⟩,
    ⟨13, false, 718986894033068468289667536519168000000⟩],
  [⟨14, false, 40428500298522903451501513408512000000000⟩, ⟨18, true, 1523421617472222609882592051200000000⟩,
    ⟨22, false, 22165769446445678175682560000000⟩, ⟨26, true, 282352005698480208691200000⟩],
  [⟨15, false, 718986894033068468289667536519168000000⟩, ⟨17, false, 2643334169239222309888483590144000000⟩,
    ⟨19, true, 13764478619439579372802965504000000⟩, ⟨21, true, 32772568141522808030483251200000⟩,
    ⟨23, false, 202707655029977665926758400000⟩, ⟨25, false, 337846091716629443211264000⟩,
    ⟨27, true, 2860003933217122019328000⟩],
  [⟨16, false, 3433386013789206757101549649920000000⟩, ⟨20, true, 149290130611251029226258432000000⟩,
    ⟨24, false, 2790641971302678484992000000⟩, ⟨28, true, 42007584258112112640000⟩],
  [⟨15, false, 2643334169239222309888483590144000000⟩, ⟨17, false, 57484708269659256810302926848000000⟩,
    ⟨19, false, 89063626507780351275104256000000⟩, ⟨21, true, 1508267912995256504316825600000⟩,
    ⟨23, true, 1997400537287972725708800000⟩, ⟨25, false, 26055294889227400532736000⟩,
    ⟨27, false, 24831737876208751488000⟩],
  [⟨14, true, 1523421617472222609882592051200000000⟩, ⟨18, false, 281863510886397529628098560000000⟩,
    ⟨22, true, 11045641367835465431040000000⟩, ⟨26, false, 227343516520506946560000⟩],
  [⟨15, true, 13764478619439579372802965504000000⟩, ⟨17, false, 89063626507780351275104256000000⟩,
    ⟨19, false, 3239904259505740809894912000000⟩, ⟨21, false, 2683870139133773836646400000⟩,
    ⟨23, true, 102596570494286130662400000⟩, ⟨25, true, 85075290634607425152000⟩,
    ⟨27, false, 2184766528345232832000⟩],
  [⟨16, true, 149290130611251029226258432000000⟩, ⟨20, false, 17454663748186246213632000000⟩,
    ⟨24, true, 643999054120950528000000⟩, ⟨28, false, 15170007057004800000⟩],
  [⟨15, true, 32772568141522808030483251200000⟩, ⟨17, true, 1508267912995256504316825600000⟩,
    ⟨19, false, 2683870139133773836646400000⟩, ⟨21, false, 168813054975049059294720000⟩,
    ⟨23, false, 76716300961217998080000⟩, ⟨25, true, 5889122978413445971200⟩, ⟨27, true, 2898691688375683200⟩],
  [⟨14, false, 22165769446445678175682560000000⟩, ⟨18, true, 11045641367835465431040000000⟩,
    ⟨22, false, 928138936687606425600000⟩, ⟨26, true, 34102414987595136000⟩],
  [⟨15, false, 202707655029977665926758400000⟩, ⟨17, true, 1997400537287972725708800000⟩,
    ⟨19, true, 102596570494286130662400000⟩, ⟨21, false, 76716300961217998080000⟩,
    ⟨23, false, 8683930327783052160000⟩, ⟨25, false, 2581945513336425600⟩, ⟨27, true, 374405394160324800⟩],
  [⟨16, false, 2790641971302678484992000000⟩, ⟨20, true, 643999054120950528000000⟩,
    ⟨24, false, 46371128870102400000⟩, ⟨28, true, 2036797897680000⟩],
  [⟨15, false, 337846091716629443211264000⟩, ⟨17, false, 26055294889227400532736000⟩,
    ⟨19, true, 85075290634607425152000⟩, ⟨21, true, 5889122978413445971200⟩, ⟨23, false, 2581945513336425600⟩,
    ⟨25, false, 514128611985900912⟩, ⟨27, false, 102237974780760⟩],
  [⟨14, true, 282352005698480208691200000⟩, ⟨18, false, 227343516520506946560000⟩, ⟨22, true, 34102414987595136000⟩,
    ⟨26, false, 2623373724202560⟩],
  [⟨15, true, 2860003933217122019328000⟩, ⟨17, false, 24831737876208751488000⟩, ⟨19, false, 2184766528345232832000⟩,
    ⟨21, true, 2898691688375683200⟩, ⟨23, true, 374405394160324800⟩, ⟨25, false, 102237974780760⟩,
    ⟨27, false, 62897307203836⟩],
  [⟨16, true, 42007584258112112640000⟩, ⟨20, false, 15170007057004800000⟩, ⟨24, true, 2036797897680000⟩,
    ⟨28, false, 307316810480⟩]]

/-- degree 14: the denominator -/
def certDen14 : ℕ := 143697677340710690926437987610467099212154166747561029795840000000000000

/-- degree 15: the rows of `Qᵀ` and `U` -/
def certRows15 : List CertRow := [
  ⟨15, 0, 0,
    [⟨16, true, 134638152929280000⟩, ⟨18, false, 32043880397168640000⟩, ⟨20, true, 7306004730554449920000⟩,
      ⟨22, false, 1534260993416434483200000⟩, ⟨24, true, 282304022788623944908800000⟩,
      ⟨26, false, 42345603418293591736320000000⟩, ⟨28, true, 4573325169175707907522560000000⟩,
      ⟨30, false, 265252859812191058636308480000000⟩],
    [⟨16, true, 14283651990802080541945365806355196048385350041600000000000⟩,
      ⟨18, true, 831797370299038977236398405202405341508350771200000000000⟩,
      ⟨20, false, 13868659490750693449443363716237267193550602240000000000⟩,
      ⟨22, false, 264057717315818610463382738572443685497077760000000000⟩,
      ⟨24, true, 6871584650530990894121485726893586954321920000000000⟩,
      ⟨26, false, 61607340820846508868569914111497517557350400000000⟩,
      ⟨28, true, 297425445696929194333792343591695574630400000000⟩,
      ⟨30, false, 818781271430727289261703314507038720000000000⟩]⟩,
  ⟨14, 1, 0,
    [⟨0, false, 265252859812191058636308480000000⟩, ⟨2, true, 3963548479952280186519552000000⟩,
      ⟨4, false, 31053442506748633939968000000⟩, ⟨6, true, 169382413673174366945280000⟩,
      ⟨8, false, 715988463594336092160000⟩, ⟨10, true, 2435334910184816640000⟩, ⟨12, false, 6408776079433728000⟩,
      ⟨14, true, 8975876861952000⟩],
    [⟨0, false, 1723945976773752624063719518153023160320000000⟩,
      ⟨2, true, 490067847951502846943961753580310888448000000000⟩,
      ⟨4, false, 84030315283611172504718159839895659688755200000000⟩,
      ⟨6, true, 7703348750266040469374873996565205431091200000000000⟩,
      ⟨8, false, 195076065737928755076487586286289713679564800000000000⟩,
      ⟨10, false, 18000863538234419739302196639965867786140385280000000000⟩,
      ⟨12, true, 738440167744777012909958105814462883675766784000000000000⟩,
      ⟨14, true, 14283651990802080541945365806355196048385350041600000000000⟩]⟩,
  ⟨14, 0, 1,
    [⟨15, true, 8975876861952000⟩, ⟨17, false, 2136258693144576000⟩, ⟨19, true, 487066982036963328000⟩,
      ⟨21, false, 102284066227762298880000⟩, ⟨23, true, 18820268185908262993920000⟩,
      ⟨25, false, 2823040227886239449088000000⟩, ⟨27, true, 304888344611713860501504000000⟩,
      ⟨29, false, 17683523987479403909087232000000⟩],
    [⟨15, true, 114269215926416644335562926450841568387082800332800000000000⟩,
      ⟨17, true, 7066068921197171955658604299575907013328528998400000000000⟩,
      ⟨19, false, 160575999389060591790128332036120180922567884800000000000⟩,
      ⟨21, false, 2574428712122797728205701464386469416811888640000000000⟩,
      ⟨23, true, 88199400965411425739531366517776167049625600000000000⟩,
      ⟨25, false, 938327123681624433173838597987339467331993600000000⟩,
      ⟨27, true, 5304832921624536662683646775311469851443200000000⟩,
      ⟨29, false, 17409743997270033379163348745048607948800000000⟩]⟩,
  ⟨13, 2, 0,
    [⟨16, true, 8975876861952000⟩, ⟨18, false, 915539439919104000⟩, ⟨20, false, 347904987169259520000⟩,
      ⟨22, true, 248404160838851297280000⟩, ⟨24, false, 88724121447853239828480000⟩,
      ⟨26, true, 21374447439710098685952000000⟩, ⟨28, false, 3353771790728852465516544000000⟩,
      ⟨30, true, 265252859812191058636308480000000⟩],
    [⟨16, false, 67203411825577001894070819449572807637485171507200000000000⟩,
      ⟨18, true, 1263383126369561500843876510569614736734394777600000000000⟩,
      ⟨20, true, 54397284568556480637405776690390198736660725760000000000⟩,
      ⟨22, false, 1042513868282886512186997462299093170567249920000000000⟩,
      ⟨24, true, 3074067012677085468349095469018278946406400000000000⟩,
      ⟨26, true, 54542392312826548693046431710275282613043200000000⟩,
      ⟨28, false, 624849242810115125458444215929502538137600000000⟩,
      ⟨30, true, 3206435773644361401504221797260051087360000000⟩]⟩,
  ⟨13, 1, 1,
    [⟨1, false, 17683523987479403909087232000000⟩, ⟨3, true, 261332866810040451858432000000⟩,
      ⟨5, false, 2016457305633028177920000000⟩, ⟨7, true, 10754438963376150282240000⟩,
      ⟨9, false, 43836028383326699520000⟩, ⟨11, true, 139161994867703808000⟩, ⟨13, false, 305179813306368000⟩],
    [⟨1, false, 34041867900615043570798843182373058641920000000⟩,
      ⟨3, true, 8400572743669399990625941306243605269053440000000⟩,
      ⟨5, false, 1258069200096332122839494945912471708825026560000000⟩,
      ⟨7, true, 96603459012085043525857809034717974516203520000000000⟩,
      ⟨9, false, 1398477133110242894806682753143770207555158016000000000⟩,
      ⟨11, false, 186637882811348304091957287055075126765305200640000000000⟩,
      ⟨13, true, 3128929211837309803894578047688024184006587187200000000000⟩]⟩,
  ⟨13, 0, 2,
    [⟨16, false, 143614029791232000⟩, ⟨18, true, 32959419837087744000⟩, ⟨20, false, 6958099743385190400000⟩,
      ⟨22, true, 1285856832577583185920000⟩, ⟨24, false, 193579901340770705080320000⟩,
      ⟨26, true, 20971155978583493050368000000⟩, ⟨28, false, 1219553378446855442006016000000⟩],
    [⟨16, true, 52919759834774921352125453643217611589099821465600000000000⟩,
      ⟨18, false, 2095180496668600478080274915772020078242745548800000000000⟩,
      ⟨20, false, 40528625077805787187962412974152931543110123520000000000⟩,
      ⟨22, true, 1306571585598705122650380200871536856064327680000000000⟩,
      ⟨24, false, 9945651663208076362470581195911865900728320000000000⟩,
      ⟨26, true, 7064948508019960175523482401222234944307200000000⟩,
      ⟨28, true, 327423797113185931124651872337806963507200000000⟩,
      ⟨30, false, 2387654502213634112242518482753012367360000000⟩]⟩,
  ⟨12, 3, 0,
    [⟨0, true, 265252859812191058636308480000000⟩, ⟨2, false, 2743995101505424744513536000000⟩,
      ⟨4, true, 13308618217177985974272000000⟩, ⟨6, false, 35365558898794648043520000⟩,
      ⟨8, true, 23604015283329761280000⟩, ⟨10, true, 240857298809487360000⟩, ⟨12, false, 1197243882971136000⟩,
      ⟨14, true, 2071356198912000⟩],
    [⟨0, true, 4784581228279891101110449942934480486400000000⟩,
      ⟨2, false, 748137302722795713198974270807251039027200000000⟩,
      ⟨4, true, 38663380981159975638794289777302584059494400000000⟩,
      ⟨6, true, 7247290352906187016914796787413975113400320000000000⟩,
      ⟨8, false, 1261105415523577542621269665455331113613393920000000000⟩,
      ⟨10, true, 46592010256642775423227981167791730950657802240000000000⟩,
      ⟨12, true, 1702621112157646480543685788017803021946716160000000000000⟩,
      ⟨14, false, 67203411825577001894070819449572807637485171507200000000000⟩]⟩,
  ⟨12, 2, 1,
    [⟨15, true, 690452066304000⟩, ⟨17, false, 117376851271680000⟩, ⟨19, false, 5352384417988608000⟩,
      ⟨21, true, 12364008005553684480000⟩, ⟨23, false, 5170403347776995328000000⟩,
      ⟨25, true, 1333964063726464794624000000⟩, ⟨27, false, 217777389008367043215360000000⟩,
      ⟨29, true, 17683523987479403909087232000000⟩],
    [⟨15, false, 537627294604616015152566555596582461099881372057600000000000⟩,
      ⟨17, true, 13347019073372435916244030343643379914064999219200000000000⟩,
      ⟨19, true, 510725921307418451088692595573122652189386342400000000000⟩,
      ⟨21, false, 12762825993220239268280919149346934369969766400000000000⟩,
      ⟨23, true, 59552149114796471537297786112982242369208320000000000⟩,
      ⟨25, true, 647569759813203423642621702853213095041433600000000⟩,
      ⟨27, false, 9757933701430992287770930721351466693427200000000⟩,
      ⟨29, true, 58869799411736371461502020336995637657600000000⟩]⟩,
  ⟨12, 1, 2,
    [⟨2, false, 1219553378446855442006016000000⟩, ⟨4, true, 17744824289570647965696000000⟩,
      ⟨6, false, 134016854774379718901760000⟩, ⟨8, true, 692384448311006330880000⟩,
      ⟨10, false, 2676192208994304000000⟩, ⟨12, true, 7606019962404864000⟩, ⟨14, false, 11047233060864000⟩],
    [⟨0, false, 3060635251506138477046730424781457326080000000⟩,
      ⟨2, true, 258069454771292866255012517226940150579200000000⟩,
      ⟨4, true, 45366934302451196865923870062593075629260800000000⟩,
      ⟨6, false, 14950639103172227486289670783979180544491520000000000⟩,
      ⟨8, true, 1456181481261506297697757251741620827292958720000000000⟩,
      ⟨10, false, 28591146718408355683925784527825863164517416960000000000⟩,
      ⟨12, false, 2441061279902423493453643893832265905622482944000000000000⟩,
      ⟨14, true, 52919759834774921352125453643217611589099821465600000000000⟩]⟩,
  ⟨12, 0, 3,
    [⟨15, false, 9666328928256000⟩, ⟨17, true, 2253635544416256000⟩, ⟨19, false, 481714597618974720000⟩,
      ⟨21, true, 89920058222208614400000⟩, ⟨23, false, 13649864838131267665920000⟩,
      ⟨25, true, 1489076164159774654464000000⟩, ⟨27, false, 87110955603346817286144000000⟩],
    [⟨15, true, 423358078678199370817003629145740892712798571724800000000000⟩,
      ⟨17, false, 20413087994569607871902634643219286927393528217600000000000⟩,
      ⟨19, false, 350149921918357859298564263537002471266818457600000000000⟩,
      ⟨21, true, 15337254705343036996486620613733403786781655040000000000⟩,
      ⟨23, false, 147751550080207897276829152630758409418833920000000000⟩,
      ⟨25, true, 290757363868421009531216895134126372290560000000000⟩,
      ⟨27, true, 4453100779806455625087283946039996841984000000000⟩,
      ⟨29, false, 41460055414466338082338671591947029708800000000⟩]⟩,
  ⟨11, 4, 0,
    [⟨16, true, 2071356198912000⟩, ⟨18, true, 70426110763008000⟩, ⟨20, false, 187333454629601280000⟩,
      ⟨22, true, 48332031294437130240000⟩, ⟨24, true, 4343138812132676075520000⟩,
      ⟨26, false, 6855954839152295804928000000⟩, ⟨28, true, 2134218412281997023510528000000⟩,
      ⟨30, false, 265252859812191058636308480000000⟩],
    [⟨16, false, 51280652229273043257148116583471933354039207526400000000000⟩,
      ⟨18, false, 5837886051528397752839451180578795170531010150400000000000⟩,
      ⟨20, true, 91240756913957190286166598899229612207432007680000000000⟩,
      ⟨22, true, 451405711004739485241565945672372285058580480000000000⟩,
      ⟨24, false, 10980863796186020601527451169541193518284800000000000⟩,
      ⟨26, true, 11999294480680080340825965017487368414822400000000⟩,
      ⟨28, true, 677828688183630226954568138107989786624000000000⟩,
      ⟨30, false, 6213064342608692968698576786934003138560000000⟩]⟩,
  ⟨11, 3, 1,
    [⟨1, true, 17683523987479403909087232000000⟩, ⟨3, false, 174221911206693634572288000000⟩,
      ⟨5, true, 775560502166549299200000000⟩, ⟨7, false, 1654529071288638504960000⟩,
      ⟨9, false, 1124000727777607680000⟩, ⟨11, true, 21409537671954432000⟩, ⟨13, false, 70426110763008000⟩],
    [⟨1, true, 84095499589248521338251216006664735948800000000⟩,
      ⟨3, false, 11332120342974234040469593199164555631001600000000⟩,
      ⟨5, true, 367400231890435735203882573487208006764462080000000⟩,
      ⟨7, true, 120022479378651114683641520315861725914071040000000000⟩,
      ⟨9, false, 14965012312254468360314502358407634464024821760000000000⟩,
      ⟨11, true, 311063138018913840153262145091791877942175334400000000000⟩,
      ⟨13, true, 14393074374451625097915059019364911246430301061120000000000⟩]⟩,
  ⟨11, 2, 2,
    [⟨16, false, 11047233060864000⟩, ⟨18, true, 845113329156096000⟩, ⟨20, true, 535238441798860800000⟩,
      ⟨22, false, 296736192133288427520000⟩, ⟨24, true, 84380982635720563752960000⟩,
      ⟨26, false, 14518492600557802881024000000⟩, ⟨28, true, 1219553378446855442006016000000⟩],
    [⟨16, true, 118484064054850045151218936033044740991524379033600000000000⟩,
      ⟨18, true, 4574502925158836251995574670009180433796615372800000000000⟩,
      ⟨20, false, 145638041482513670923572375589619810944092733440000000000⟩,
      ⟨22, true, 591108157278147026945431516626720885508669440000000000⟩,
      ⟨24, true, 7906796783508935133178355700522914571878400000000000⟩,
      ⟨26, false, 66541686793506629033872396727762651027865600000000⟩,
      ⟨28, false, 52979445373515101496123922178487248486400000000⟩,
      ⟨30, true, 3006628568964331567194354989673952051200000000⟩]⟩,
  ⟨11, 1, 3,
    [⟨3, false, 87110955603346817286144000000⟩, ⟨5, true, 1240896803466478878720000000⟩,
      ⟨7, false, 9099909892087511777280000⟩, ⟨9, true, 44960029111104307200000⟩, ⟨11, false, 160571532539658240000⟩,
      ⟨13, true, 375605924069376000⟩],
    [⟨1, false, 50053631688633477767452372824291677306880000000⟩,
      ⟨3, true, 2931547599304834049843651892920950361948160000000⟩,
      ⟨5, true, 890668968205896387635612372425263702060564480000000⟩,
      ⟨7, false, 216625938390736158209499329350579700430274560000000000⟩,
      ⟨9, true, 16363489445364711255121185111551404671579979776000000000⟩,
      ⟨11, false, 124425255207565536061304858036716751176870133760000000000⟩,
      ⟨13, false, 17522003586288934901809637067052935430436888248320000000000⟩]⟩,
  ⟨11, 0, 4,
    [⟨16, true, 154661262852096000⟩, ⟨18, false, 33804533166243840000⟩, ⟨20, true, 6422861301586329600000⟩,
      ⟨22, false, 989120640444294758400000⟩, ⟨24, true, 109198918705050141327360000⟩,
      ⟨26, false, 6452663378025690169344000000⟩],
    [⟨16, false, 171403823889624966503344389676262352580624200499200000000000⟩,
      ⟨18, false, 2479322428490235773915299754237160355553869824000000000000⟩,
      ⟨20, true, 186166666560319458111534788563772742487202856960000000000⟩,
      ⟨22, false, 1897679742876852149595811717498257741572997120000000000⟩,
      ⟨24, true, 2038854879699141229292225495388951328849920000000000⟩,
      ⟨26, true, 59476738285486668858348914326540416083558400000000⟩,
      ⟨28, false, 274444351739670829628527950159319715020800000000⟩,
      ⟨30, false, 618974066750697454951836506920939683840000000⟩]⟩,
  ⟨10, 5, 0,
    [⟨0, false, 265252859812191058636308480000000⟩, ⟨2, true, 1524441723058569302507520000000⟩,
      ⟨4, false, 2016457305633028177920000000⟩, ⟨6, false, 9306726025998591590400000⟩,
      ⟨8, true, 39340025472216268800000⟩, ⟨10, true, 2432902008176640000⟩, ⟨12, false, 416154290872320000⟩,
      ⟨14, true, 941525544960000⟩],
    [⟨0, false, 7681555180217842289134593611818850058240000000⟩,
      ⟨2, true, 599758340536329681824766499541827033497600000000⟩,
      ⟨4, true, 47021888340679131777304073738531672948736000000000⟩,
      ⟨6, false, 11783822212813362832183319499137604428759040000000000⟩,
      ⟨8, false, 8172665026446573919526627735153462476800000000000000⟩,
      ⟨10, true, 121084452812450769046258170015047283153913774080000000000⟩,
      ⟨12, false, 5502718389899162175995345843431919789132061081600000000000⟩,
      ⟨14, false, 51280652229273043257148116583471933354039207526400000000000⟩]⟩,
  ⟨10, 4, 1,
    [⟨15, true, 188305108992000⟩, ⟨17, false, 19207121117184000⟩, ⟨19, false, 9245027631071232000⟩,
      ⟨21, true, 3985093489393336320000⟩, ⟨23, false, 206816133911079813120000⟩,
      ⟨25, false, 341246620953281691648000000⟩, ⟨27, true, 130666433405020225929216000000⟩,
      ⟨29, false, 17683523987479403909087232000000⟩],
    [⟨15, false, 410245217834184346057184932667775466832313660211200000000000⟩,
      ⟨17, false, 51032719986424019679756586608048217318483820544000000000000⟩,
      ⟨19, true, 1066036149442950791094283125323317047614609817600000000000⟩,
      ⟨21, true, 2793063846910296473700877809557294844991242240000000000⟩,
      ⟨23, false, 141583533184770062114885195462154589285908480000000000⟩,
      ⟨25, true, 375608104172561456461286568618159659758387200000000⟩,
      ⟨27, true, 9267392477521192059941250877632461301350400000000⟩,
      ⟨29, false, 104882666659537812236591895564492629606400000000⟩]⟩,
  ⟨10, 3, 2,
    [⟨2, true, 1219553378446855442006016000000⟩, ⟨4, false, 11292160911544957796352000000⟩,
      ⟨6, true, 44672284924793239633920000⟩, ⟨8, false, 62944040755546030080000⟩,
      ⟨10, false, 243290200817664000000⟩, ⟨12, true, 1613398173843456000⟩, ⟨14, false, 3012881743872000⟩],
    [⟨0, true, 2896973951937951188024143668884369571840000000⟩,
      ⟨2, true, 148378962186466031374207771265424005529600000000⟩,
      ⟨4, false, 85685269321839107416098363515834257008230400000000⟩,
      ⟨6, true, 4536531859907175815268522711723629315358720000000000⟩,
      ⟨8, true, 1269278080550024116540796293190484576090193920000000000⟩,
      ⟨10, false, 167676463069093544469486151182839014104571576320000000000⟩,
      ⟨12, true, 3800097277741515695451660055414116767185344921600000000000⟩,
      ⟨14, true, 118484064054850045151218936033044740991524379033600000000000⟩]⟩,
  ⟨10, 2, 3,
    [⟨15, false, 878757175296000⟩, ⟨17, true, 136583972388864000⟩, ⟨19, true, 14597412049059840000⟩,
      ⟨21, false, 16349101494947020800000⟩, ⟨23, true, 5377219481688075141120000⟩,
      ⟨25, false, 992717442773183102976000000⟩, ⟨27, true, 87110955603346817286144000000⟩],
    [⟨15, true, 947872512438800361209751488264357927932195032268800000000000⟩,
      ⟨17, true, 37685700913051583763512556264404837404418821324800000000000⟩,
      ⟨19, false, 1576762070750369242182975720896439699803996160000000000000⟩,
      ⟨21, true, 9969762146309942794580041339789639524978524160000000000⟩,
      ⟨23, true, 82031384069973590577587409349172346916700160000000000⟩,
      ⟨25, false, 1023177863985764880103908271471372754799820800000000⟩,
      ⟨27, true, 490541223909800227829679843719005392076800000000⟩,
      ⟨29, true, 46012867247801440775089875227496991948800000000⟩]⟩,
  ⟨10, 1, 4,
    [⟨4, false, 6452663378025690169344000000⟩, ⟨6, true, 89344569849586479267840000⟩,
      ⟨8, false, 629440407555460300800000⟩, ⟨10, true, 2919482409811968000000⟩, ⟨12, false, 9219418136248320000⟩,
      ⟨14, true, 14060114804736000⟩],
    [⟨0, true, 163661299568187289022586755897087754240000000⟩,
      ⟨2, false, 406448416957758897629220288492364156108800000000⟩,
      ⟨4, true, 40318335019387910550174493453241181378969600000000⟩,
      ⟨6, true, 10414107243265051671021148072255551229132800000000000⟩,
      ⟨8, false, 2725459561811530414238553544932105403383152640000000000⟩,
      ⟨10, true, 196267609787501900153411935710664877269088993280000000000⟩,
      ⟨12, false, 1359035997839092201998016161581850861562861977600000000000⟩,
      ⟨14, false, 171403823889624966503344389676262352580624200499200000000000⟩]⟩,
  ⟨10, 0, 5,
    [⟨15, true, 10545086103552000⟩, ⟨17, false, 2390219516805120000⟩, ⟨19, true, 467117185569914880000⟩,
      ⟨21, false, 73570956727261593600000⟩, ⟨23, true, 8272645356443192524800000⟩,
      ⟨25, false, 496358721386591551488000000⟩],
    [⟨15, false, 1371230591116999732026755117410098820644993603993600000000000⟩,
      ⟨17, false, 17272612918481975891609921621185550477025293107200000000000⟩,
      ⟨19, true, 1926911992668727101481539984433442171070814617600000000000⟩,
      ⟨21, false, 25307016851652979791066661953523043311760179200000000000⟩,
      ⟨23, true, 65720166010234306699241743281586062502133760000000000⟩,
      ⟨25, true, 732420500117343870572691376337246382509260800000000⟩,
      ⟨27, false, 4943642003716255852916963789759002234060800000000⟩,
      ⟨29, false, 4552811833335102692751203635549962240000000000⟩]⟩,
  ⟨9, 6, 0,
    [⟨16, true, 941525544960000⟩, ⟨18, true, 160059342643200000⟩, ⟨20, false, 94883178318888960000⟩,
      ⟨22, false, 3372002183332823040000⟩, ⟨24, true, 10547622829465070469120000⟩,
      ⟨26, false, 1209874383379816906752000000⟩, ⟨28, false, 914665033835141581504512000000⟩,
      ⟨30, true, 265252859812191058636308480000000⟩],
    [⟨16, true, 310727970357284604576418039754645002560776385331200000000000⟩,
      ⟨18, false, 5352734687434938036585654870644733545401024512000000000000⟩,
      ⟨20, false, 94156659185280989344507529734297357654834544640000000000⟩,
      ⟨22, true, 976330537210051963710148227349455744301793280000000000⟩,
      ⟨24, true, 7708986704690081873991822800625977964625920000000000⟩,
      ⟨26, false, 81239157325266520221179790477682564870963200000000⟩,
      ⟨28, false, 376652116843298938300495226815873076428800000000⟩,
      ⟨30, true, 8524732500009313728417884220917022720000000000⟩]⟩,
  ⟨9, 5, 1,
    [⟨1, false, 17683523987479403909087232000000⟩, ⟨3, true, 87110955603346817286144000000⟩,
      ⟨5, false, 31022420086661971968000000⟩, ⟨7, false, 827264535644319252480000⟩,
      ⟨9, true, 1941455802524958720000⟩, ⟨11, true, 4865804016353280000⟩, ⟨13, false, 32011868528640000⟩],
    [⟨1, false, 126196077412199907677597796987996198666240000000⟩,
      ⟨3, true, 7785489854768314610324463846491343279882240000000⟩,
      ⟨5, true, 897786513611421370046311343500905430426583040000000⟩,
      ⟨7, false, 146368877291037944736148195507148446236672000000000000⟩,
      ⟨9, false, 4757436228524564614108715160227405192056799232000000000⟩,
      ⟨11, true, 1368677807283220896674353438403884262945571471360000000000⟩,
      ⟨13, false, 27534577064168326274272286819654612819257967247360000000000⟩]⟩,
  ⟨9, 4, 2,
    [⟨16, false, 3012881743872000⟩, ⟨18, false, 230485453406208000⟩, ⟨20, true, 282216632948490240000⟩,
      ⟨22, false, 44960029111104307200000⟩, ⟨24, false, 14890761641597746544640000⟩,
      ⟨26, true, 8065829222532112711680000000⟩, ⟨28, false, 1219553378446855442006016000000⟩],
    [⟨16, false, 259447318128011561319269923171173069206737177804800000000000⟩,
      ⟨18, true, 11190620738963335789425106051223528715932034662400000000000⟩,
      ⟨20, true, 2915902271323799058340930835067745447402536960000000000⟩,
      ⟨22, false, 1427736248214791448951714173021828029360373760000000000⟩,
      ⟨24, true, 3271877091495938727535628368915215553658880000000000⟩,
      ⟨26, true, 69239862844586439880353825460195196456140800000000⟩,
      ⟨28, false, 301176571340331288654072911292116710195200000000⟩,
      ⟨30, false, 2311668157400620759719307433983019581440000000⟩]⟩,
  ⟨9, 3, 3,
    [⟨3, true, 87110955603346817286144000000⟩, ⟨5, false, 744538082079887327232000000⟩,
      ⟨7, true, 2481793606932957757440000⟩, ⟨9, false, 817455074747351040000⟩, ⟨11, false, 26275341688307712000⟩,
      ⟨13, true, 102437979291648000⟩],
    [⟨1, true, 42100577822951386339346580981331462717440000000⟩,
      ⟨3, true, 3546630488205919430145129352673212351119360000000⟩,
      ⟨5, false, 1265186745501857105250193916988113437191045120000000⟩,
      ⟨7, true, 26346397912386830052506675191286720322600960000000000⟩,
      ⟨9, true, 19722448540779032974423217518635039656081620992000000000⟩,
      ⟨11, false, 1679740945302134736827615583495676140887746805760000000000⟩,
      ⟨13, true, 13141502689716701176357227800289701572827666186240000000000⟩]⟩,
  ⟨9, 2, 4,
    [⟨16, true, 14060114804736000⟩, ⟨18, false, 614627875749888000⟩, ⟨20, false, 817455074747351040000⟩,
      ⟨22, true, 341696221244392734720000⟩, ⟨24, false, 69490220994122817208320000⟩,
      ⟨26, true, 6452663378025690169344000000⟩],
    [⟨16, true, 140963254073161516168050987138128328215212798771200000000000⟩,
      ⟨18, false, 15765123664122172041420680721232709149728650035200000000000⟩,
      ⟨20, true, 142722139211189871865231444754552065496690196480000000000⟩,
      ⟨22, true, 836628090936644422006282656395107143851704320000000000⟩,
      ⟨24, false, 11178673875004873860713984069438130125537280000000000⟩,
      ⟨26, false, 2698176051079810846481428732432545428275200000000⟩,
      ⟨28, true, 354156016713846390150196833470603958681600000000⟩,
      ⟨30, false, 694960411563710807475047555690932469760000000⟩]⟩,
  ⟨9, 1, 5,
    [⟨5, false, 496358721386591551488000000⟩, ⟨7, true, 6618116285154554019840000⟩,
      ⟨9, false, 44142574036356956160000⟩, ⟨11, true, 186846874227965952000⟩, ⟨13, false, 478043903361024000⟩],
    [⟨1, true, 7953053865682091428105791842960214589440000000⟩,
      ⟨3, false, 6478178087510753479988781245594162713067520000000⟩,
      ⟨5, true, 374517777295960717614581544562849735130480640000000⟩,
      ⟨7, true, 190279540478349328156992654159292980107673600000000000⟩,
      ⟨9, false, 36085937986143744229544402630186444327661600768000000000⟩,
      ⟨11, true, 1804166200509700272888920441532392892064616939520000000000⟩,
      ⟨13, true, 4380500896572233725452409266763233857609222062080000000000⟩]⟩,
  ⟨9, 0, 6,
    [⟨16, false, 168721377656832000⟩, ⟨18, true, 34419161041993728000⟩, ⟨20, false, 5605406226838978560000⟩,
      ⟨22, true, 647424419199902023680000⟩, ⟨24, false, 39708697710927324119040000⟩],
    [⟨16, true, 30440569816463450335293402538134024365411401728000000000000⟩,
      ⟨18, true, 18244446092612407815335980475469869505282519859200000000000⟩,
      ⟨20, false, 328888805771509329976766233318324807983893053440000000000⟩,
      ⟨22, true, 1061051651940207727589529061103150597721292800000000000⟩,
      ⟨24, true, 9139818995305732631421758574049178796687360000000000⟩,
      ⟨26, false, 56778562234406858011867485594107870655283200000000⟩,
      ⟨28, false, 79711664974175560521668883311284243660800000000⟩,
      ⟨30, true, 1313934478314408262426884062611872153600000000⟩]⟩,
  ⟨8, 7, 0,
    [⟨0, true, 265252859812191058636308480000000⟩, ⟨2, false, 304888344611713860501504000000⟩,
      ⟨4, false, 2823040227886239449088000000⟩, ⟨6, true, 4343138812132676075520000⟩,
      ⟨8, true, 23604015283329761280000⟩, ⟨10, false, 51090942171709440000⟩, ⟨12, false, 224083079700480000⟩,
      ⟨14, true, 732297646080000⟩],
    [⟨0, true, 9117197004798559913912243562677419376640000000⟩,
      ⟨2, false, 138792002323345243079597400515672014848000000000⟩,
      ⟨4, false, 98583089251818473365818966205269437684121600000000⟩,
      ⟨6, true, 3564569047568687670023641422305489363927040000000000⟩,
      ⟨8, true, 1311388009520957636880287893483453963283988480000000000⟩,
      ⟨10, false, 60639893022357431660096996019609819514939637760000000000⟩,
      ⟨12, false, 7383636454476013883490347940936530947759040102400000000000⟩,
      ⟨14, true, 310727970357284604576418039754645002560776385331200000000000⟩]⟩,
  ⟨8, 6, 1,
    [⟨15, true, 104613949440000⟩, ⟨17, false, 3556874280960000⟩, ⟨19, false, 7298706024529920000⟩,
      ⟨21, true, 919636959090769920000⟩, ⟨23, true, 620448401733239439360000⟩,
      ⟨25, false, 155112100433309859840000000⟩, ⟨27, false, 43555477801673408643072000000⟩,
      ⟨29, true, 17683523987479403909087232000000⟩],
    [⟨15, true, 2485823762858276836611344318037160020486211082649600000000000⟩,
      ⟨17, false, 57313670138599283640342012652115690219220290764800000000000⟩,
      ⟨19, false, 800705152709785208271768590220743746406213222400000000000⟩,
      ⟨21, true, 12981461128007738013776095494517759798149120000000000000⟩,
      ⟨23, true, 71283263560410287624637781708610523742863360000000000⟩,
      ⟨25, false, 1210288779322266400355173732222392902615040000000000⟩,
      ⟨27, false, 3768700796449397724703603722131805202022400000000⟩,
      ⟨29, true, 134364989514679342793518181017477290393600000000⟩]⟩,
  ⟨8, 5, 2,
    [⟨2, false, 1219553378446855442006016000000⟩, ⟨4, true, 4839497533519267627008000000⟩,
      ⟨6, true, 4963587213865915514880000⟩, ⟨8, false, 62944040755546030080000⟩, ⟨10, true, 48658040163532800000⟩,
      ⟨12, true, 640237370572800000⟩, ⟨14, false, 1673823191040000⟩],
    [⟨0, false, 1435641824580717624777649950858569318400000000⟩,
      ⟨2, false, 460966338212984438745169099026155018649600000000⟩,
      ⟨4, true, 51561200911139341588514892466737764735385600000000⟩,
      ⟨6, true, 8219253165244675162159678076832115064832000000000000⟩,
      ⟨8, false, 1303215344494511062960761265748300500807188480000000000⟩,
      ⟨10, false, 60444559790093337386161173995437463638974136320000000000⟩,
      ⟨12, true, 12886354844375176059485693784368450736891101184000000000000⟩,
      ⟨14, false, 259447318128011561319269923171173069206737177804800000000000⟩]⟩,
  ⟨8, 4, 3,
    [⟨15, false, 292919058432000⟩, ⟨17, true, 22763995398144000⟩, ⟨19, true, 16543733655601152000⟩,
      ⟨21, false, 4904730448484106240000⟩, ⟨23, false, 413632267822159626240000⟩,
      ⟨25, true, 496358721386591551488000000⟩, ⟨27, false, 87110955603346817286144000000⟩],
    [⟨15, false, 2075578545024092490554159385369384553653897422438400000000000⟩,
      ⟨17, true, 108346390125023303320098599260163907537704111308800000000000⟩,
      ⟨19, false, 265330996733165582822514535102573301208396595200000000000⟩,
      ⟨21, false, 15774524974918034487476973304075054643140362240000000000⟩,
      ⟨23, true, 70300269624359774490247413753544065543045120000000000⟩,
      ⟨25, true, 834680675149704943893887163604233242856652800000000⟩,
      ⟨27, false, 5498691681071794335237647155500656099328000000000⟩,
      ⟨29, false, 29482322855141530556926285452984660787200000000⟩]⟩,
  ⟨8, 3, 4,
    [⟨4, true, 6452663378025690169344000000⟩, ⟨6, false, 49635872138659155148800000⟩,
      ⟨8, true, 125888081511092060160000⟩, ⟨10, true, 194632160654131200000⟩, ⟨12, false, 2253635544416256000⟩,
      ⟨14, true, 4686704934912000⟩],
    [⟨0, false, 1461332127357233563246493718025800253440000000⟩,
      ⟨2, true, 312587376026518407370961327760731013120000000000⟩,
      ⟨4, true, 34124068410699765827583471049096492272844800000000⟩,
      ⟨6, false, 12755785025151850977428200788555744380190720000000000⟩,
      ⟨8, true, 33937263944486946419964972557815924716994560000000000⟩,
      ⟨10, true, 228121022859186881855647325178276477743545712640000000000⟩,
      ⟨12, false, 16686452122116691754937353839782567504076446105600000000000⟩,
      ⟨14, true, 140963254073161516168050987138128328215212798771200000000000⟩]⟩,
  ⟨8, 2, 5,
    [⟨15, true, 1171676233728000⟩, ⟨17, false, 159347967787008000⟩, ⟨19, false, 31141145704660992000⟩,
      ⟨21, true, 21253831943431127040000⟩, ⟨23, false, 4963587213865915514880000⟩,
      ⟨25, true, 496358721386591551488000000⟩],
    [⟨15, true, 1127706032585292129344407897105026625721702390169600000000000⟩,
      ⟨17, false, 146032091038074887083611155524568744942122932633600000000000⟩,
      ⟨19, true, 1842093067483534825005490255999013001012392755200000000000⟩,
      ⟨21, true, 5804762828608091692896931964285415118161838080000000000⟩,
      ⟨23, false, 152331653694333365067834823102716412459745280000000000⟩,
      ⟨25, true, 188497188836059936210021107867139511943168000000000⟩,
      ⟨27, true, 5008150457161994107407967311781650707251200000000⟩,
      ⟨29, false, 16530544392659910218163589774512331161600000000⟩]⟩,
  ⟨8, 1, 6,
    [⟨6, false, 39708697710927324119040000⟩, ⟨8, true, 503552326044368240640000⟩,
      ⟨10, false, 3114114570466099200000⟩, ⟨12, true, 11473053680664576000⟩, ⟨14, false, 18746819739648000⟩],
    [⟨0, true, 1297670827789046274223906962128712499200000000⟩,
      ⟨2, true, 93861040931240490258258960731633142988800000000⟩,
      ⟨4, false, 74442403430087676377757964502337673651814400000000⟩,
      ⟨6, true, 2341677781886799306407052716300193151057920000000000⟩,
      ⟨8, true, 2691522297867043467818588572374289478666158080000000000⟩,
      ⟨10, false, 424388632646688782009059260888941355012634705920000000000⟩,
      ⟨12, true, 18045488119955783956935370001364418365639308083200000000000⟩,
      ⟨14, true, 30440569816463450335293402538134024365411401728000000000000⟩]⟩,
  ⟨8, 0, 7,
    [⟨15, false, 11716762337280000⟩, ⟨17, true, 2549567484592128000⟩, ⟨19, false, 435976039865253888000⟩,
      ⟨21, true, 52317124783830466560000⟩, ⟨23, false, 3309058142577277009920000⟩],
    [⟨15, true, 243524558531707602682347220305072194923291213824000000000000⟩,
      ⟨17, true, 163304703956556862975221077145754295419148225740800000000000⟩,
      ⟨19, false, 3769005060152261926487030240432455172083207372800000000000⟩,
      ⟨21, true, 19502254023044888098169729989237628193598341120000000000⟩,
      ⟨23, true, 86611487684099058368593079821130349957611520000000000⟩,
      ⟨25, false, 920917688953403806782712484204385894452428800000000⟩,
      ⟨27, false, 64508453445738254491003522022648473190400000000⟩,
      ⟨29, true, 21083356225995012910914793410062293401600000000⟩]⟩,
  ⟨7, 8, 0,
    [⟨16, true, 732297646080000⟩, ⟨18, true, 224083079700480000⟩, ⟨20, false, 51090942171709440000⟩,
      ⟨22, false, 23604015283329761280000⟩, ⟨24, true, 4343138812132676075520000⟩,
      ⟨26, true, 2823040227886239449088000000⟩, ⟨28, false, 304888344611713860501504000000⟩,
      ⟨30, false, 265252859812191058636308480000000⟩],
    [⟨16, true, 310727970357284604576418039754645002560776385331200000000000⟩,
      ⟨18, true, 7383636454476013883490347940936530947759040102400000000000⟩,
      ⟨20, false, 60639893022357431660096996019609819514939637760000000000⟩,
      ⟨22, false, 1311388009520957636880287893483453963283988480000000000⟩,
      ⟨24, true, 3564569047568687670023641422305489363927040000000000⟩,
      ⟨26, true, 98583089251818473365818966205269437684121600000000⟩,
      ⟨28, false, 138792002323345243079597400515672014848000000000⟩,
      ⟨30, false, 9117197004798559913912243562677419376640000000⟩]⟩,
  ⟨7, 7, 1,
    [⟨1, true, 17683523987479403909087232000000⟩, ⟨5, false, 217156940606633803776000000⟩,
      ⟨9, true, 2145819571211796480000⟩, ⟨13, false, 24898119966720000⟩],
    [⟨1, true, 142387509362320174568255178973960344698880000000⟩,
      ⟨5, false, 1455365836750692975994132351797548570325811200000000⟩,
      ⟨9, true, 17618197901239321702798208890072918128825729024000000000⟩,
      ⟨13, false, 77597444453565283136585535582662999763363362242560000000000⟩]⟩,
  ⟨7, 6, 2,
    [⟨16, false, 1673823191040000⟩, ⟨18, false, 384142422343680000⟩, ⟨20, true, 145974120490598400000⟩,
      ⟨22, true, 26976017466662584320000⟩, ⟨24, false, 14890761641597746544640000⟩,
      ⟨26, false, 1613165844506422542336000000⟩, ⟨28, true, 1219553378446855442006016000000⟩],
    [⟨16, false, 621455940714569209152836079509290005121552770662400000000000⟩,
      ⟨18, false, 2030901767041075846904693070291797402358015590400000000000⟩,
      ⟨20, true, 154796552207638421004604525753907177169774182400000000000⟩,
      ⟨22, true, 335057472310905673170139666133998218982195200000000000⟩,
      ⟨24, false, 11273555752258769544015464222931467328552960000000000⟩,
      ⟨26, false, 17343931926551953144639175727586872813158400000000⟩,
      ⟨28, true, 515444119166644181380092627331545091276800000000⟩,
      ⟨30, true, 592464504789246185494359341760396656640000000⟩]⟩,
  ⟨7, 5, 3,
    [⟨3, false, 87110955603346817286144000000⟩, ⟨5, true, 248179360693295775744000000⟩,
      ⟨7, true, 827264535644319252480000⟩, ⟨9, false, 4087275373736755200000⟩, ⟨11, false, 4865804016353280000⟩,
      ⟨13, true, 56909988495360000⟩],
    [⟨1, false, 16191431950120266890657381985964146032640000000⟩,
      ⟨3, false, 7785489854768314610324463846491343279882240000000⟩,
      ⟨5, true, 557579323139271605947821008296643139899228160000000⟩,
      ⟨7, true, 146368877291037944736148195507148446236672000000000000⟩,
      ⟨9, false, 12860761672714757088689493729845512936768929792000000000⟩,
      ⟨11, false, 1368677807283220896674353438403884262945571471360000000000⟩,
      ⟨13, true, 105132021517733609410857822402317612582621329489920000000000⟩]⟩,
  ⟨7, 4, 4,
    [⟨16, true, 4686704934912000⟩, ⟨18, true, 614627875749888000⟩, ⟨20, false, 428190753439088640000⟩,
      ⟨22, true, 17984011644441722880000⟩, ⟨24, true, 29781523283195493089280000⟩,
      ⟨26, false, 6452663378025690169344000000⟩],
    [⟨16, true, 880903258842580770472106002680463074328289948467200000000000⟩,
      ⟨18, false, 9159718971922259942520412980931731313574019072000000000000⟩,
      ⟨20, false, 157712454478962220062945456588974922617176719360000000000⟩,
      ⟨22, true, 1092678775903885775781574506887829810378178560000000000⟩,
      ⟨24, true, 8001678660762830816479835854016251774894080000000000⟩,
      ⟨26, false, 51895930918034486735714649732608323642982400000000⟩,
      ⟨28, false, 214267547826312892726019716039428381081600000000⟩,
      ⟨30, true, 1719203652611374574224948092222622924800000000⟩]⟩,
  ⟨7, 3, 5,
    [⟨5, true, 496358721386591551488000000⟩, ⟨7, false, 3309058142577277009920000⟩,
      ⟨9, true, 4904730448484106240000⟩, ⟨11, true, 31141145704660992000⟩, ⟨13, false, 159347967787008000⟩],
    [⟨1, false, 25909145872831119448689198995367316684800000000⟩,
      ⟨3, true, 4238859366562395180179334493818130928762880000000⟩,
      ⟨5, true, 707607422362585499302372908691470297291816960000000⟩,
      ⟨7, false, 172715275203424774788654870698435166559272960000000000⟩,
      ⟨9, false, 6861686868064275885733723788789526719312691200000000000⟩,
      ⟨11, true, 3048418752585355633501969021899560403833318277120000000000⟩,
      ⟨13, false, 118273524207450310587215050202607314155448995676160000000000⟩]⟩,
  ⟨7, 2, 6,
    [⟨16, false, 18746819739648000⟩, ⟨20, true, 1245645828186439680000⟩, ⟨22, false, 359680232888834457600000⟩,
      ⟨24, true, 39708697710927324119040000⟩],
    [⟨16, false, 1021866512915742286640156989818591402543502747238400000000000⟩,
      ⟨18, true, 24924842636044431983941093702164440463302669107200000000000⟩,
      ⟨20, true, 14990315267772348197714011834422857120486522880000000000⟩,
      ⟨22, false, 1929306866840530197787857163282936954229882880000000000⟩,
      ⟨24, true, 3176995214242043044234148215421878350643200000000000⟩,
      ⟨26, true, 54594106969114297582196078465040869071257600000000⟩,
      ⟨28, false, 139888468887533497424177117431175577600000000000⟩,
      ⟨30, false, 1024243241047663766749900536531690455040000000⟩]⟩,
  ⟨7, 1, 7,
    [⟨7, false, 3309058142577277009920000⟩, ⟨9, true, 39237843587872849920000⟩, ⟨11, false, 217988019932626944000⟩,
      ⟨13, true, 637391871148032000⟩],
    [⟨1, true, 17956092007149028020583407152407102095360000000⟩,
      ⟨3, true, 2239318720948358299809446751776031784304640000000⟩,
      ⟨5, false, 1082125199658546216916954453254320032422297600000000⟩,
      ⟨7, false, 17564265274924553368337783460857813548400640000000000⟩,
      ⟨9, true, 42947624854208020115278126418975971046974291968000000000⟩,
      ⟨11, false, 4852584953095055906390889463431953295897935216640000000000⟩,
      ⟨13, true, 113893023310878076861762640935844080297839773614080000000000⟩]⟩,
  ⟨7, 0, 8,
    [⟨16, true, 187468197396480000⟩, ⟨18, false, 34419161041993728000⟩, ⟨20, true, 4359760398652538880000⟩,
      ⟨22, false, 287744186311067566080000⟩],
    [⟨16, true, 991425943099278836304863587280457378178091345510400000000000⟩,
      ⟨18, false, 43169288728656839799277074177634309968585188966400000000000⟩,
      ⟨20, true, 313898490503736981779052221483901950863406530560000000000⟩,
      ⟨22, true, 868255214900322470198328102179786356508590080000000000⟩,
      ⟨24, false, 12316814209547775675655906789471057147330560000000000⟩,
      ⟨26, true, 2184455265292560429671407129067001584025600000000⟩,
      ⟨28, true, 219600133861709057945846000742459821260800000000⟩,
      ⟨30, false, 289691237266744495676983526080181698560000000⟩]⟩,
  ⟨6, 9, 0,
    [⟨0, false, 265252859812191058636308480000000⟩, ⟨2, false, 914665033835141581504512000000⟩,
      ⟨4, true, 1209874383379816906752000000⟩, ⟨6, true, 10547622829465070469120000⟩,
      ⟨8, true, 3372002183332823040000⟩, ⟨10, false, 94883178318888960000⟩, ⟨12, false, 160059342643200000⟩,
      ⟨14, true, 941525544960000⟩],
    [⟨0, false, 8524732500009313728417884220917022720000000000⟩,
      ⟨2, false, 376652116843298938300495226815873076428800000000⟩,
      ⟨4, true, 81239157325266520221179790477682564870963200000000⟩,
      ⟨6, true, 7708986704690081873991822800625977964625920000000000⟩,
      ⟨8, false, 976330537210051963710148227349455744301793280000000000⟩,
      ⟨10, false, 94156659185280989344507529734297357654834544640000000000⟩,
      ⟨12, true, 5352734687434938036585654870644733545401024512000000000000⟩,
      ⟨14, true, 310727970357284604576418039754645002560776385331200000000000⟩]⟩,
  ⟨6, 8, 1,
    [⟨15, true, 104613949440000⟩, ⟨17, true, 3556874280960000⟩, ⟨19, false, 7298706024529920000⟩,
      ⟨21, false, 919636959090769920000⟩, ⟨23, true, 620448401733239439360000⟩,
      ⟨25, true, 155112100433309859840000000⟩, ⟨27, false, 43555477801673408643072000000⟩,
      ⟨29, false, 17683523987479403909087232000000⟩],
    [⟨15, true, 2485823762858276836611344318037160020486211082649600000000000⟩,
      ⟨17, true, 57313670138599283640342012652115690219220290764800000000000⟩,
      ⟨19, false, 800705152709785208271768590220743746406213222400000000000⟩,
      ⟨21, false, 12981461128007738013776095494517759798149120000000000000⟩,
      ⟨23, true, 71283263560410287624637781708610523742863360000000000⟩,
      ⟨25, true, 1210288779322266400355173732222392902615040000000000⟩,
      ⟨27, false, 3768700796449397724703603722131805202022400000000⟩,
      ⟨29, false, 134364989514679342793518181017477290393600000000⟩]⟩,
  ⟨6, 7, 2,
    [⟨2, true, 1219553378446855442006016000000⟩, ⟨4, true, 1613165844506422542336000000⟩,
      ⟨6, false, 14890761641597746544640000⟩, ⟨8, false, 26976017466662584320000⟩,
      ⟨10, true, 145974120490598400000⟩, ⟨12, true, 384142422343680000⟩, ⟨14, false, 1673823191040000⟩],
    [⟨0, false, 592464504789246185494359341760396656640000000⟩,
      ⟨2, true, 515444119166644181380092627331545091276800000000⟩,
      ⟨4, true, 17343931926551953144639175727586872813158400000000⟩,
      ⟨6, false, 11273555752258769544015464222931467328552960000000000⟩,
      ⟨8, false, 335057472310905673170139666133998218982195200000000000⟩,
      ⟨10, true, 154796552207638421004604525753907177169774182400000000000⟩,
      ⟨12, true, 2030901767041075846904693070291797402358015590400000000000⟩,
      ⟨14, false, 621455940714569209152836079509290005121552770662400000000000⟩]⟩,
  ⟨6, 6, 3,
    [⟨15, false, 209227898880000⟩, ⟨19, true, 14597412049059840000⟩, ⟨23, false, 1240896803466478878720000⟩,
      ⟨27, true, 87110955603346817286144000000⟩],
    [⟨15, false, 4971647525716553673222688636074320040972422165299200000000000⟩,
      ⟨19, true, 1601410305419570416543537180441487492812426444800000000000⟩,
      ⟨23, false, 142566527120820575249275563417221047485726720000000000⟩,
      ⟨27, true, 7537401592898795449407207444263610404044800000000⟩]⟩,
  ⟨6, 5, 4,
    [⟨4, false, 6452663378025690169344000000⟩, ⟨6, true, 9927174427731831029760000⟩,
      ⟨8, true, 89920058222208614400000⟩, ⟨10, false, 194632160654131200000⟩, ⟨12, false, 1024379792916480000⟩,
      ⟨14, true, 3347646382080000⟩],
    [⟨0, true, 2028106329369963810272009292618965975040000000⟩,
      ⟨2, false, 54477780953659742634923528305390072627200000000⟩,
      ⟨4, false, 68905132837691294733154068194324637548544000000000⟩,
      ⟨6, true, 3054302587014094381855786146099352263720960000000000⟩,
      ⟨8, true, 1638272816805416736130900931882298719789383680000000000⟩,
      ⟨10, false, 94351992417545083618443351758469713530800046080000000000⟩,
      ⟨12, false, 14917256611416251906390386854660248139249116774400000000000⟩,
      ⟨14, true, 880903258842580770472106002680463074328289948467200000000000⟩]⟩,
  ⟨6, 4, 5,
    [⟨15, true, 502146957312000⟩, ⟨17, false, 22763995398144000⟩, ⟨19, false, 31141145704660992000⟩,
      ⟨21, true, 4904730448484106240000⟩, ⟨23, true, 1654529071288638504960000⟩,
      ⟨25, false, 496358721386591551488000000⟩],
    [⟨15, true, 7047226070740646163776848021443704594626319587737600000000000⟩,
      ⟨17, false, 108346390125023303320098599260163907537704111308800000000000⟩,
      ⟨19, false, 1336079308686404833721022645338914191604029849600000000000⟩,
      ⟨21, true, 15774524974918034487476973304075054643140362240000000000⟩,
      ⟨23, true, 72266257496460800759028149663676981942681600000000000⟩,
      ⟨25, false, 834680675149704943893887163604233242856652800000000⟩,
      ⟨27, false, 2038709911827001114169560288762954304716800000000⟩,
      ⟨29, true, 29482322855141530556926285452984660787200000000⟩]⟩,
  ⟨6, 3, 6,
    [⟨6, true, 39708697710927324119040000⟩, ⟨8, false, 215808139733300674560000⟩, ⟨12, true, 3278015337332736000⟩,
      ⟨14, false, 8034351316992000⟩],
    [⟨0, false, 566774202012730247025515574593165721600000000⟩,
      ⟨2, false, 258109595072858664736037799455340940492800000000⟩,
      ⟨4, true, 34781064426991528905570597145228145275699200000000⟩,
      ⟨6, true, 9701482438137756595572414642456392116469760000000000⟩,
      ⟨8, false, 1672210080749903682550865904440114644506378240000000000⟩,
      ⟨10, false, 133769030441641798237203973419806764212745666560000000000⟩,
      ⟨12, true, 31603708733532943661327740694442815643325562880000000000000⟩,
      ⟨14, false, 1021866512915742286640156989818591402543502747238400000000000⟩]⟩,
  ⟨6, 2, 7,
    [⟨15, false, 1673823191040000⟩, ⟨17, true, 182111963185152000⟩, ⟨19, true, 62282291409321984000⟩,
      ⟨21, false, 26158562391915233280000⟩, ⟨23, true, 3309058142577277009920000⟩],
    [⟨15, false, 8174932103325938293121255918548731220348021977907200000000000⟩,
      ⟨17, true, 254378481163098190403709754784732652479827043942400000000000⟩,
      ⟨19, false, 506013758797129991284467610660098809408362905600000000000⟩,
      ⟨21, false, 21579287803526126180373905268360469761302200320000000000⟩,
      ⟨23, true, 80065396197872564308806673439039430517063680000000000⟩,
      ⟨25, true, 646183486313645007683866055737093730913484800000000⟩,
      ⟨27, false, 2969440545334992993238407023018696402534400000000⟩,
      ⟨29, false, 12951778462481620338762695678472329625600000000⟩]⟩,
  ⟨6, 1, 8,
    [⟨8, false, 287744186311067566080000⟩, ⟨10, true, 3114114570466099200000⟩, ⟨12, false, 14751069017997312000⟩,
      ⟨14, true, 26781171056640000⟩],
    [⟨0, false, 730896625776316027198391387535546777600000000⟩,
      ⟨2, true, 164248554141618174477778838723707797504000000000⟩,
      ⟨4, true, 39661339003096147472187367357109528376115200000000⟩,
      ⟨6, false, 12043160220024555901979467358756585267527680000000000⟩,
      ⟨8, false, 1019312217117139785267722667934174834159779840000000000⟩,
      ⟨10, true, 558157663088330580246263234308748119225380372480000000000⟩,
      ⟨12, false, 49649196853488727618263110695807234008964870963200000000000⟩,
      ⟨14, true, 991425943099278836304863587280457378178091345510400000000000⟩]⟩,
  ⟨6, 0, 9,
    [⟨15, true, 13390585528320000⟩, ⟨17, false, 2731679447777280000⟩, ⟨19, true, 373693748455931904000⟩,
      ⟨21, false, 26158562391915233280000⟩],
    [⟨15, true, 7931407544794230690438908698243659025424730764083200000000000⟩,
      ⟨17, false, 417683185119655053378930831930486947898975269683200000000000⟩,
      ⟨19, true, 4275018818949391917771497851092553981491570278400000000000⟩,
      ⟨21, true, 2077033780481238082204175279122841567703859200000000000⟩,
      ⟨23, false, 166676883881971622677399753260169780474675200000000000⟩,
      ⟨25, true, 274734202639758799098846428467292163538944000000000⟩,
      ⟨27, true, 3033948998780731247729410545041344875724800000000⟩,
      ⟨29, false, 8131577763513392572152097731589963776000000000⟩]⟩,
  ⟨5, 10, 0,
    [⟨16, true, 941525544960000⟩, ⟨18, true, 416154290872320000⟩, ⟨20, true, 2432902008176640000⟩,
      ⟨22, false, 39340025472216268800000⟩, ⟨24, false, 9306726025998591590400000⟩,
      ⟨26, true, 2016457305633028177920000000⟩, ⟨28, true, 1524441723058569302507520000000⟩,
      ⟨30, true, 265252859812191058636308480000000⟩],
    [⟨16, false, 51280652229273043257148116583471933354039207526400000000000⟩,
      ⟨18, true, 5502718389899162175995345843431919789132061081600000000000⟩,
      ⟨20, true, 121084452812450769046258170015047283153913774080000000000⟩,
      ⟨22, true, 8172665026446573919526627735153462476800000000000000⟩,
      ⟨24, false, 11783822212813362832183319499137604428759040000000000⟩,
      ⟨26, false, 47021888340679131777304073738531672948736000000000⟩,
      ⟨28, true, 599758340536329681824766499541827033497600000000⟩,
      ⟨30, true, 7681555180217842289134593611818850058240000000⟩]⟩,
  ⟨5, 9, 1,
    [⟨1, false, 17683523987479403909087232000000⟩, ⟨3, false, 87110955603346817286144000000⟩,
      ⟨5, false, 31022420086661971968000000⟩, ⟨7, true, 827264535644319252480000⟩,
      ⟨9, true, 1941455802524958720000⟩, ⟨11, false, 4865804016353280000⟩, ⟨13, false, 32011868528640000⟩],
    [⟨1, false, 126196077412199907677597796987996198666240000000⟩,
      ⟨3, false, 7785489854768314610324463846491343279882240000000⟩,
      ⟨5, true, 897786513611421370046311343500905430426583040000000⟩,
      ⟨7, true, 146368877291037944736148195507148446236672000000000000⟩,
      ⟨9, false, 4757436228524564614108715160227405192056799232000000000⟩,
      ⟨11, false, 1368677807283220896674353438403884262945571471360000000000⟩,
      ⟨13, false, 27534577064168326274272286819654612819257967247360000000000⟩]⟩,
  ⟨5, 8, 2,
    [⟨16, false, 1673823191040000⟩, ⟨18, false, 640237370572800000⟩, ⟨20, true, 48658040163532800000⟩,
      ⟨22, true, 62944040755546030080000⟩, ⟨24, true, 4963587213865915514880000⟩,
      ⟨26, false, 4839497533519267627008000000⟩, ⟨28, false, 1219553378446855442006016000000⟩],
    [⟨16, false, 259447318128011561319269923171173069206737177804800000000000⟩,
      ⟨18, false, 12886354844375176059485693784368450736891101184000000000000⟩,
      ⟨20, false, 60444559790093337386161173995437463638974136320000000000⟩,
      ⟨22, true, 1303215344494511062960761265748300500807188480000000000⟩,
      ⟨24, true, 8219253165244675162159678076832115064832000000000000⟩,
      ⟨26, false, 51561200911139341588514892466737764735385600000000⟩,
      ⟨28, false, 460966338212984438745169099026155018649600000000⟩,
      ⟨30, true, 1435641824580717624777649950858569318400000000⟩]⟩,
  ⟨5, 7, 3,
    [⟨3, true, 87110955603346817286144000000⟩, ⟨5, true, 248179360693295775744000000⟩,
      ⟨7, false, 827264535644319252480000⟩, ⟨9, false, 4087275373736755200000⟩, ⟨11, true, 4865804016353280000⟩,
      ⟨13, true, 56909988495360000⟩],
    [⟨1, false, 16191431950120266890657381985964146032640000000⟩,
      ⟨3, true, 7785489854768314610324463846491343279882240000000⟩,
      ⟨5, true, 557579323139271605947821008296643139899228160000000⟩,
      ⟨7, false, 146368877291037944736148195507148446236672000000000000⟩,
      ⟨9, false, 12860761672714757088689493729845512936768929792000000000⟩,
      ⟨11, true, 1368677807283220896674353438403884262945571471360000000000⟩,
      ⟨13, true, 105132021517733609410857822402317612582621329489920000000000⟩]⟩,
  ⟨5, 6, 4,
    [⟨16, true, 3347646382080000⟩, ⟨18, true, 1024379792916480000⟩, ⟨20, false, 194632160654131200000⟩,
      ⟨22, false, 89920058222208614400000⟩, ⟨24, true, 9927174427731831029760000⟩,
      ⟨26, true, 6452663378025690169344000000⟩],
    [⟨16, true, 880903258842580770472106002680463074328289948467200000000000⟩,
      ⟨18, true, 14917256611416251906390386854660248139249116774400000000000⟩,
      ⟨20, false, 94351992417545083618443351758469713530800046080000000000⟩,
      ⟨22, false, 1638272816805416736130900931882298719789383680000000000⟩,
      ⟨24, true, 3054302587014094381855786146099352263720960000000000⟩,
      ⟨26, true, 68905132837691294733154068194324637548544000000000⟩,
      ⟨28, false, 54477780953659742634923528305390072627200000000⟩,
      ⟨30, false, 2028106329369963810272009292618965975040000000⟩]⟩,
  ⟨5, 5, 5,
    [⟨5, false, 496358721386591551488000000⟩, ⟨9, true, 8174550747473510400000⟩, ⟨13, false, 113819976990720000⟩],
    [⟨1, true, 32382863900240533781314763971928292065280000000⟩,
      ⟨5, false, 1115158646278543211895642016593286279798456320000000⟩,
      ⟨9, true, 25721523345429514177378987459691025873537859584000000000⟩,
      ⟨13, false, 210264043035467218821715644804635225165242658979840000000000⟩]⟩,
  ⟨5, 4, 6,
    [⟨16, false, 8034351316992000⟩, ⟨18, false, 1639007668666368000⟩, ⟨20, true, 622822914093219840000⟩,
      ⟨22, true, 71936046577766891520000⟩, ⟨24, false, 39708697710927324119040000⟩],
    [⟨16, false, 1761806517685161540944212005360926148656579896934400000000000⟩,
      ⟨18, false, 5757537639493991963869973873728516825675097702400000000000⟩,
      ⟨20, true, 252064446896507303681388808347444636147976765440000000000⟩,
      ⟨22, true, 545594040901530960349326424994468909411205120000000000⟩,
      ⟨24, false, 11055981247776925198335622000115604038615040000000000⟩,
      ⟨26, false, 17009201919656807997439418461716313905561600000000⟩,
      ⟨28, true, 268745328779972635360943244344818453708800000000⟩,
      ⟨30, true, 308902676758589236047061200396343050240000000⟩]⟩,
  ⟨5, 3, 7,
    [⟨7, true, 3309058142577277009920000⟩, ⟨9, false, 13079281195957616640000⟩, ⟨11, false, 31141145704660992000⟩,
      ⟨13, true, 273167944777728000⟩],
    [⟨1, false, 6473718027409414332625564976560975380480000000⟩,
      ⟨3, false, 4238859366562395180179334493818130928762880000000⟩,
      ⟨5, true, 407551223915957712593269107901815982506639360000000⟩,
      ⟨7, true, 172715275203424774788654870698435166559272960000000000⟩,
      ⟨9, false, 18859836477365238291645263670901499154225168384000000000⟩,
      ⟨11, false, 3048418752585355633501969021899560403833318277120000000000⟩,
      ⟨13, true, 328537567242917529408930695007242539320691654656000000000000⟩]⟩,
  ⟨5, 2, 8,
    [⟨16, true, 26781171056640000⟩, ⟨18, true, 1639007668666368000⟩, ⟨20, false, 1868468742279659520000⟩,
      ⟨22, true, 287744186311067566080000⟩],
    [⟨16, true, 2783673030600903827584368995179517551200082644172800000000000⟩,
      ⟨18, false, 19167304996550440020071119828435923637627571404800000000000⟩,
      ⟨20, false, 267054762164279651879102820181867493268463288320000000000⟩,
      ⟨22, true, 1383712825938999237438530738288468044818677760000000000⟩,
      ⟨24, true, 7878986033534882154101473784693725687971840000000000⟩,
      ⟨26, false, 37584905049457489584756660003324555165696000000000⟩,
      ⟨28, false, 128856859892439137936766126913642876108800000000⟩,
      ⟨30, true, 715340564289074530702839336135347404800000000⟩]⟩,
  ⟨5, 1, 9,
    [⟨9, false, 26158562391915233280000⟩, ⟨11, true, 249129165637287936000⟩, ⟨13, false, 910559815925760000⟩],
    [⟨1, false, 11482373979739613687957842175846126714880000000⟩,
      ⟨3, true, 1999540645614036880369887742042099144458240000000⟩,
      ⟨5, true, 674573975742588504323685345352504049915658240000000⟩,
      ⟨7, false, 155151009928500221420317087237577353010872320000000000⟩,
      ⟨9, false, 24087788376842781823632862748074471892749123584000000000⟩,
      ⟨11, true, 7901003705680411539892858485331513699731253493760000000000⟩,
      ⟨13, false, 442430590553795606270693335943086619618531428270080000000000⟩]⟩,
  ⟨5, 0, 10,
    [⟨16, false, 214249368453120000⟩, ⟨18, true, 32780153373327360000⟩, ⟨20, false, 2491291656372879360000⟩],
    [⟨16, false, 3775098973700182663889232582459974929378173989683200000000000⟩,
      ⟨18, true, 62336593725207279819348194006070233606212760371200000000000⟩,
      ⟨20, false, 46843728339457329899949401302034457594943242240000000000⟩,
      ⟨22, false, 2251968040839321707636858840468254401327267840000000000⟩,
      ⟨24, true, 4437828176012893521554433004777331459358720000000000⟩,
      ⟨26, true, 35400449784164929155085252874257553581670400000000⟩,
      ⟨28, false, 90743273969269920009079873828816945152000000000⟩,
      ⟨30, false, 425649327022330035025855810055165706240000000⟩]⟩,
  ⟨4, 11, 0,
    [⟨0, true, 265252859812191058636308480000000⟩, ⟨2, true, 2134218412281997023510528000000⟩,
      ⟨4, true, 6855954839152295804928000000⟩, ⟨6, true, 4343138812132676075520000⟩,
      ⟨8, false, 48332031294437130240000⟩, ⟨10, false, 187333454629601280000⟩, ⟨12, false, 70426110763008000⟩,
      ⟨14, true, 2071356198912000⟩],
    [⟨0, true, 6213064342608692968698576786934003138560000000⟩,
      ⟨2, true, 677828688183630226954568138107989786624000000000⟩,
      ⟨4, false, 11999294480680080340825965017487368414822400000000⟩,
      ⟨6, false, 10980863796186020601527451169541193518284800000000000⟩,
      ⟨8, false, 451405711004739485241565945672372285058580480000000000⟩,
      ⟨10, true, 91240756913957190286166598899229612207432007680000000000⟩,
      ⟨12, true, 5837886051528397752839451180578795170531010150400000000000⟩,
      ⟨14, false, 51280652229273043257148116583471933354039207526400000000000⟩]⟩,
  ⟨4, 10, 1,
    [⟨15, true, 188305108992000⟩, ⟨17, true, 19207121117184000⟩, ⟨19, false, 9245027631071232000⟩,
      ⟨21, false, 3985093489393336320000⟩, ⟨23, false, 206816133911079813120000⟩,
      ⟨25, true, 341246620953281691648000000⟩, ⟨27, true, 130666433405020225929216000000⟩,
      ⟨29, true, 17683523987479403909087232000000⟩],
    [⟨15, false, 410245217834184346057184932667775466832313660211200000000000⟩,
      ⟨17, true, 51032719986424019679756586608048217318483820544000000000000⟩,
      ⟨19, true, 1066036149442950791094283125323317047614609817600000000000⟩,
      ⟨21, false, 2793063846910296473700877809557294844991242240000000000⟩,
      ⟨23, false, 141583533184770062114885195462154589285908480000000000⟩,
      ⟨25, false, 375608104172561456461286568618159659758387200000000⟩,
      ⟨27, true, 9267392477521192059941250877632461301350400000000⟩,
      ⟨29, true, 104882666659537812236591895564492629606400000000⟩]⟩,
  ⟨4, 9, 2,
    [⟨2, false, 1219553378446855442006016000000⟩, ⟨4, false, 8065829222532112711680000000⟩,
      ⟨6, false, 14890761641597746544640000⟩, ⟨8, true, 44960029111104307200000⟩, ⟨10, true, 282216632948490240000⟩,
      ⟨12, true, 230485453406208000⟩, ⟨14, false, 3012881743872000⟩],
    [⟨0, true, 2311668157400620759719307433983019581440000000⟩,
      ⟨2, false, 301176571340331288654072911292116710195200000000⟩,
      ⟨4, false, 69239862844586439880353825460195196456140800000000⟩,
      ⟨6, true, 3271877091495938727535628368915215553658880000000000⟩,
      ⟨8, true, 1427736248214791448951714173021828029360373760000000000⟩,
      ⟨10, true, 2915902271323799058340930835067745447402536960000000000⟩,
      ⟨12, false, 11190620738963335789425106051223528715932034662400000000000⟩,
      ⟨14, false, 259447318128011561319269923171173069206737177804800000000000⟩]⟩,
  ⟨4, 8, 3,
    [⟨15, false, 292919058432000⟩, ⟨17, false, 22763995398144000⟩, ⟨19, true, 16543733655601152000⟩,
      ⟨21, true, 4904730448484106240000⟩, ⟨23, false, 413632267822159626240000⟩,
      ⟨25, false, 496358721386591551488000000⟩, ⟨27, false, 87110955603346817286144000000⟩],
    [⟨15, false, 2075578545024092490554159385369384553653897422438400000000000⟩,
      ⟨17, false, 108346390125023303320098599260163907537704111308800000000000⟩,
      ⟨19, false, 265330996733165582822514535102573301208396595200000000000⟩,
      ⟨21, true, 15774524974918034487476973304075054643140362240000000000⟩,
      ⟨23, true, 70300269624359774490247413753544065543045120000000000⟩,
      ⟨25, false, 834680675149704943893887163604233242856652800000000⟩,
      ⟨27, false, 5498691681071794335237647155500656099328000000000⟩,
      ⟨29, true, 29482322855141530556926285452984660787200000000⟩]⟩,
  ⟨4, 7, 4,
    [⟨4, true, 6452663378025690169344000000⟩, ⟨6, true, 29781523283195493089280000⟩,
      ⟨8, false, 17984011644441722880000⟩, ⟨10, false, 428190753439088640000⟩, ⟨12, false, 614627875749888000⟩,
      ⟨14, true, 4686704934912000⟩],
    [⟨0, false, 1719203652611374574224948092222622924800000000⟩,
      ⟨2, false, 214267547826312892726019716039428381081600000000⟩,
      ⟨4, true, 51895930918034486735714649732608323642982400000000⟩,
      ⟨6, true, 8001678660762830816479835854016251774894080000000000⟩,
      ⟨8, false, 1092678775903885775781574506887829810378178560000000000⟩,
      ⟨10, false, 157712454478962220062945456588974922617176719360000000000⟩,
      ⟨12, true, 9159718971922259942520412980931731313574019072000000000000⟩,
      ⟨14, true, 880903258842580770472106002680463074328289948467200000000000⟩]⟩,
  ⟨4, 6, 5,
    [⟨15, true, 502146957312000⟩, ⟨17, true, 22763995398144000⟩, ⟨19, false, 31141145704660992000⟩,
      ⟨21, false, 4904730448484106240000⟩, ⟨23, true, 1654529071288638504960000⟩,
      ⟨25, true, 496358721386591551488000000⟩],
    [⟨15, true, 7047226070740646163776848021443704594626319587737600000000000⟩,
      ⟨17, true, 108346390125023303320098599260163907537704111308800000000000⟩,
      ⟨19, false, 1336079308686404833721022645338914191604029849600000000000⟩,
      ⟨21, false, 15774524974918034487476973304075054643140362240000000000⟩,
      ⟨23, true, 72266257496460800759028149663676981942681600000000000⟩,
      ⟨25, true, 834680675149704943893887163604233242856652800000000⟩,
      ⟨27, false, 2038709911827001114169560288762954304716800000000⟩,
      ⟨29, false, 29482322855141530556926285452984660787200000000⟩]⟩,
  ⟨4, 5, 6,
    [⟨6, false, 39708697710927324119040000⟩, ⟨8, false, 71936046577766891520000⟩, ⟨10, true, 622822914093219840000⟩,
      ⟨12, true, 1639007668666368000⟩, ⟨14, false, 8034351316992000⟩],
    [⟨0, false, 308902676758589236047061200396343050240000000⟩,
      ⟨2, true, 268745328779972635360943244344818453708800000000⟩,
      ⟨4, true, 17009201919656807997439418461716313905561600000000⟩,
      ⟨6, false, 11055981247776925198335622000115604038615040000000000⟩,
      ⟨8, false, 545594040901530960349326424994468909411205120000000000⟩,
      ⟨10, true, 252064446896507303681388808347444636147976765440000000000⟩,
      ⟨12, true, 5757537639493991963869973873728516825675097702400000000000⟩,
      ⟨14, false, 1761806517685161540944212005360926148656579896934400000000000⟩]⟩,
  ⟨4, 4, 7,
    [⟨15, false, 1004293914624000⟩, ⟨19, true, 62282291409321984000⟩, ⟨23, false, 3309058142577277009920000⟩],
    [⟨15, false, 14094452141481292327553696042887409189252639175475200000000000⟩,
      ⟨19, true, 2672158617372809667442045290677828383208059699200000000000⟩,
      ⟨23, false, 144532514992921601518056299327353963885363200000000000⟩,
      ⟨27, true, 4077419823654002228339120577525908609433600000000⟩]⟩,
  ⟨4, 3, 8,
    [⟨8, true, 287744186311067566080000⟩, ⟨10, false, 622822914093219840000⟩, ⟨12, false, 4917023005999104000⟩,
      ⟨14, true, 16068702633984000⟩],
    [⟨0, true, 875676878771319483072576774989508771840000000⟩,
      ⟨2, false, 10635733707113970624905444889477513216000000000⟩,
      ⟨4, false, 51790266346648336903010015606944459181260800000000⟩,
      ⟨6, true, 1354498809639168602763207357659211922145280000000000⟩,
      ⟨8, true, 2217804121651434642900192329434583553917583360000000000⟩,
      ⟨10, false, 118295416454865505444184834927637871935231098880000000000⟩,
      ⟨12, false, 37361246373026935625197714568171332469000660582400000000000⟩,
      ⟨14, true, 2783673030600903827584368995179517551200082644172800000000000⟩]⟩,
  ⟨4, 2, 9,
    [⟨15, true, 2678117105664000⟩, ⟨17, false, 182111963185152000⟩, ⟨19, false, 124564582818643968000⟩,
      ⟨21, true, 26158562391915233280000⟩],
    [⟨15, true, 22269384244807230620674951961436140409600661153382400000000000⟩,
      ⟨17, false, 254378481163098190403709754784732652479827043942400000000000⟩,
      ⟨19, false, 2166144858575679676157577680017729573799696793600000000000⟩,
      ⟨21, true, 21579287803526126180373905268360469761302200320000000000⟩,
      ⟨23, true, 64467118795049037209249625888314533368299520000000000⟩,
      ⟨25, false, 646183486313645007683866055737093730913484800000000⟩,
      ⟨27, false, 1107979278319009235100713554507212206899200000000⟩,
      ⟨29, true, 12951778462481620338762695678472329625600000000⟩]⟩,
  ⟨4, 1, 10,
    [⟨10, false, 2491291656372879360000⟩, ⟨12, true, 19668092023996416000⟩, ⟨14, false, 42849873690624000⟩],
    [⟨0, false, 144780252995003455874185387453961994240000000⟩,
      ⟨2, false, 153612820434504203852873393834230284288000000000⟩,
      ⟨4, true, 12128927343552189430822648249834930805145600000000⟩,
      ⟨6, true, 10688661410385387299216260001097373345382400000000000⟩,
      ⟨8, false, 1198491904534294857632469661500408719757803520000000000⟩,
      ⟨10, false, 439862246633465074802078399381110247290149273600000000000⟩,
      ⟨12, true, 87010443226515663243460825263978566477965531545600000000000⟩,
      ⟨14, false, 3775098973700182663889232582459974929378173989683200000000000⟩]⟩,
  ⟨4, 0, 11,
    [⟨15, false, 16068702633984000⟩, ⟨17, true, 2913791410962432000⟩, ⟨19, false, 249129165637287936000⟩],
    [⟨15, false, 30200791789601461311113860659679799435025391917465600000000000⟩,
      ⟨17, true, 672061666282753243782640586715219600378802313625600000000000⟩,
      ⟨19, false, 2108873960373712241613920171074824407691873484800000000000⟩,
      ⟨21, false, 23656321584007364262578080547483311329006059520000000000⟩,
      ⟨23, true, 102209765086922585468150127371855247106375680000000000⟩,
      ⟨25, true, 371449283673886208585019627269801567374540800000000⟩,
      ⟨27, false, 1925969720461722012628696990534132668825600000000⟩,
      ⟨29, false, 4820200698968227766610597946882365849600000000⟩]⟩,
  ⟨3, 12, 0,
    [⟨16, true, 2071356198912000⟩, ⟨18, true, 1197243882971136000⟩, ⟨20, true, 240857298809487360000⟩,
      ⟨22, false, 23604015283329761280000⟩, ⟨24, false, 35365558898794648043520000⟩,
      ⟨26, false, 13308618217177985974272000000⟩, ⟨28, false, 2743995101505424744513536000000⟩,
      ⟨30, false, 265252859812191058636308480000000⟩],
    [⟨16, false, 67203411825577001894070819449572807637485171507200000000000⟩,
      ⟨18, false, 1702621112157646480543685788017803021946716160000000000000⟩,
      ⟨20, true, 46592010256642775423227981167791730950657802240000000000⟩,
      ⟨22, true, 1261105415523577542621269665455331113613393920000000000⟩,
      ⟨24, true, 7247290352906187016914796787413975113400320000000000⟩,
      ⟨26, false, 38663380981159975638794289777302584059494400000000⟩,
      ⟨28, false, 748137302722795713198974270807251039027200000000⟩,
      ⟨30, false, 4784581228279891101110449942934480486400000000⟩]⟩,
  ⟨3, 11, 1,
    [⟨1, true, 17683523987479403909087232000000⟩, ⟨3, true, 174221911206693634572288000000⟩,
      ⟨5, true, 775560502166549299200000000⟩, ⟨7, true, 1654529071288638504960000⟩,
      ⟨9, false, 1124000727777607680000⟩, ⟨11, false, 21409537671954432000⟩, ⟨13, false, 70426110763008000⟩],
    [⟨1, true, 84095499589248521338251216006664735948800000000⟩,
      ⟨3, true, 11332120342974234040469593199164555631001600000000⟩,
      ⟨5, true, 367400231890435735203882573487208006764462080000000⟩,
      ⟨7, false, 120022479378651114683641520315861725914071040000000000⟩,
      ⟨9, false, 14965012312254468360314502358407634464024821760000000000⟩,
      ⟨11, false, 311063138018913840153262145091791877942175334400000000000⟩,
      ⟨13, true, 14393074374451625097915059019364911246430301061120000000000⟩]⟩,
  ⟨3, 10, 2,
    [⟨16, false, 3012881743872000⟩, ⟨18, false, 1613398173843456000⟩, ⟨20, false, 243290200817664000000⟩,
      ⟨22, true, 62944040755546030080000⟩, ⟨24, true, 44672284924793239633920000⟩,
      ⟨26, true, 11292160911544957796352000000⟩, ⟨28, true, 1219553378446855442006016000000⟩],
    [⟨16, true, 118484064054850045151218936033044740991524379033600000000000⟩,
      ⟨18, false, 3800097277741515695451660055414116767185344921600000000000⟩,
      ⟨20, false, 167676463069093544469486151182839014104571576320000000000⟩,
      ⟨22, false, 1269278080550024116540796293190484576090193920000000000⟩,
      ⟨24, true, 4536531859907175815268522711723629315358720000000000⟩,
      ⟨26, true, 85685269321839107416098363515834257008230400000000⟩,
      ⟨28, true, 148378962186466031374207771265424005529600000000⟩,
      ⟨30, false, 2896973951937951188024143668884369571840000000⟩]⟩,
  ⟨3, 9, 3,
    [⟨3, false, 87110955603346817286144000000⟩, ⟨5, false, 744538082079887327232000000⟩,
      ⟨7, false, 2481793606932957757440000⟩, ⟨9, false, 817455074747351040000⟩, ⟨11, true, 26275341688307712000⟩,
      ⟨13, true, 102437979291648000⟩],
    [⟨1, true, 42100577822951386339346580981331462717440000000⟩,
      ⟨3, false, 3546630488205919430145129352673212351119360000000⟩,
      ⟨5, false, 1265186745501857105250193916988113437191045120000000⟩,
      ⟨7, false, 26346397912386830052506675191286720322600960000000000⟩,
      ⟨9, true, 19722448540779032974423217518635039656081620992000000000⟩,
      ⟨11, true, 1679740945302134736827615583495676140887746805760000000000⟩,
      ⟨13, true, 13141502689716701176357227800289701572827666186240000000000⟩]⟩,
  ⟨3, 8, 4,
    [⟨16, true, 4686704934912000⟩, ⟨18, true, 2253635544416256000⟩, ⟨20, true, 194632160654131200000⟩,
      ⟨22, false, 125888081511092060160000⟩, ⟨24, false, 49635872138659155148800000⟩,
      ⟨26, false, 6452663378025690169344000000⟩],
    [⟨16, true, 140963254073161516168050987138128328215212798771200000000000⟩,
      ⟨18, true, 16686452122116691754937353839782567504076446105600000000000⟩,
      ⟨20, true, 228121022859186881855647325178276477743545712640000000000⟩,
      ⟨22, false, 33937263944486946419964972557815924716994560000000000⟩,
      ⟨24, false, 12755785025151850977428200788555744380190720000000000⟩,
      ⟨26, false, 34124068410699765827583471049096492272844800000000⟩,
      ⟨28, true, 312587376026518407370961327760731013120000000000⟩,
      ⟨30, true, 1461332127357233563246493718025800253440000000⟩]⟩,
  ⟨3, 7, 5,
    [⟨5, true, 496358721386591551488000000⟩, ⟨7, true, 3309058142577277009920000⟩,
      ⟨9, true, 4904730448484106240000⟩, ⟨11, false, 31141145704660992000⟩, ⟨13, false, 159347967787008000⟩],
    [⟨1, false, 25909145872831119448689198995367316684800000000⟩,
      ⟨3, false, 4238859366562395180179334493818130928762880000000⟩,
      ⟨5, true, 707607422362585499302372908691470297291816960000000⟩,
      ⟨7, true, 172715275203424774788654870698435166559272960000000000⟩,
      ⟨9, false, 6861686868064275885733723788789526719312691200000000000⟩,
      ⟨11, false, 3048418752585355633501969021899560403833318277120000000000⟩,
      ⟨13, false, 118273524207450310587215050202607314155448995676160000000000⟩]⟩,
  ⟨3, 6, 6,
    [⟨16, false, 8034351316992000⟩, ⟨18, false, 3278015337332736000⟩, ⟨22, true, 215808139733300674560000⟩,
      ⟨24, true, 39708697710927324119040000⟩],
    [⟨16, false, 1021866512915742286640156989818591402543502747238400000000000⟩,
      ⟨18, false, 31603708733532943661327740694442815643325562880000000000000⟩,
      ⟨20, false, 133769030441641798237203973419806764212745666560000000000⟩,
      ⟨22, true, 1672210080749903682550865904440114644506378240000000000⟩,
      ⟨24, true, 9701482438137756595572414642456392116469760000000000⟩,
      ⟨26, false, 34781064426991528905570597145228145275699200000000⟩,
      ⟨28, false, 258109595072858664736037799455340940492800000000⟩,
      ⟨30, true, 566774202012730247025515574593165721600000000⟩]⟩,
  ⟨3, 5, 7,
    [⟨7, false, 3309058142577277009920000⟩, ⟨9, false, 13079281195957616640000⟩, ⟨11, true, 31141145704660992000⟩,
      ⟨13, true, 273167944777728000⟩],
    [⟨1, false, 6473718027409414332625564976560975380480000000⟩,
      ⟨3, true, 4238859366562395180179334493818130928762880000000⟩,
      ⟨5, true, 407551223915957712593269107901815982506639360000000⟩,
      ⟨7, false, 172715275203424774788654870698435166559272960000000000⟩,
      ⟨9, false, 18859836477365238291645263670901499154225168384000000000⟩,
      ⟨11, true, 3048418752585355633501969021899560403833318277120000000000⟩,
      ⟨13, true, 328537567242917529408930695007242539320691654656000000000000⟩]⟩,
  ⟨3, 4, 8,
    [⟨16, true, 16068702633984000⟩, ⟨18, true, 4917023005999104000⟩, ⟨20, false, 622822914093219840000⟩,
      ⟨22, false, 287744186311067566080000⟩],
    [⟨16, true, 2783673030600903827584368995179517551200082644172800000000000⟩,
      ⟨18, true, 37361246373026935625197714568171332469000660582400000000000⟩,
      ⟨20, false, 118295416454865505444184834927637871935231098880000000000⟩,
      ⟨22, false, 2217804121651434642900192329434583553917583360000000000⟩,
      ⟨24, true, 1354498809639168602763207357659211922145280000000000⟩,
      ⟨26, true, 51790266346648336903010015606944459181260800000000⟩,
      ⟨28, false, 10635733707113970624905444889477513216000000000⟩,
      ⟨30, false, 875676878771319483072576774989508771840000000⟩]⟩,
  ⟨3, 3, 9,
    [⟨9, true, 26158562391915233280000⟩, ⟨13, false, 546335889555456000⟩],
    [⟨1, true, 12947436054818828665251129953121950760960000000⟩,
      ⟨5, false, 815102447831915425186538215803631965013278720000000⟩,
      ⟨9, true, 37719672954730476583290527341802998308450336768000000000⟩,
      ⟨13, false, 657075134485835058817861390014485078641383309312000000000000⟩]⟩,
  ⟨3, 2, 10,
    [⟨16, false, 42849873690624000⟩, ⟨18, false, 6556030674665472000⟩, ⟨20, true, 2491291656372879360000⟩],
    [⟨16, false, 5567346061201807655168737990359035102400165288345600000000000⟩,
      ⟨18, false, 18193941376476495605126594739735408831373089177600000000000⟩,
      ⟨20, true, 385350178619145157323287655109505365203694387200000000000⟩,
      ⟨22, true, 834091295712435405461661591146115509098905600000000000⟩,
      ⟨24, false, 9233484843174050756864681142352937610117120000000000⟩,
      ⟨26, false, 14205361297190847318253355603619904015564800000000⟩,
      ⟨28, true, 139492593599553108561671571803120389324800000000⟩,
      ⟨30, true, 160336314482244952369737438854161367040000000⟩]⟩,
  ⟨3, 1, 11,
    [⟨11, false, 249129165637287936000⟩, ⟨13, true, 1456895705481216000⟩],
    [⟨1, false, 1465062075079214977293287777275824046080000000⟩,
      ⟨3, false, 1999540645614036880369887742042099144458240000000⟩,
      ⟨5, true, 140528472089326920862852870451127915097620480000000⟩,
      ⟨7, true, 155151009928500221420317087237577353010872320000000000⟩,
      ⟨9, false, 13631884577887694759657664593728526415701213184000000000⟩,
      ⟨11, false, 7901003705680411539892858485331513699731253493760000000000⟩,
      ⟨13, true, 1099505725039630665088554725957571698259914737582080000000000⟩]⟩,
  ⟨3, 0, 12,
    [⟨16, true, 257099242143744000⟩, ⟨18, false, 26224122698661888000⟩],
    [⟨16, true, 9342445034901990319057970572819010031778339278028800000000000⟩,
      ⟨18, false, 44142652348730784214221599266334824774839671193600000000000⟩,
      ⟨20, false, 338506450279687827423338253807470907608751144960000000000⟩,
      ⟨22, true, 1417876745126886302175197249322138892228362240000000000⟩,
      ⟨24, true, 4795656667161157235310248137575606150758400000000000⟩,
      ⟨26, false, 21195088486974081836831897270637649566105600000000⟩,
      ⟨28, false, 48749319630283188552591697974303444172800000000⟩,
      ⟨30, true, 265313012540085082656118371201004339200000000⟩]⟩,
  ⟨2, 13, 0,
    [⟨0, false, 265252859812191058636308480000000⟩, ⟨2, false, 3353771790728852465516544000000⟩,
      ⟨4, false, 21374447439710098685952000000⟩, ⟨6, false, 88724121447853239828480000⟩,
      ⟨8, false, 248404160838851297280000⟩, ⟨10, false, 347904987169259520000⟩, ⟨12, true, 915539439919104000⟩,
      ⟨14, true, 8975876861952000⟩],
    [⟨0, false, 3206435773644361401504221797260051087360000000⟩,
      ⟨2, false, 624849242810115125458444215929502538137600000000⟩,
      ⟨4, false, 54542392312826548693046431710275282613043200000000⟩,
      ⟨6, true, 3074067012677085468349095469018278946406400000000000⟩,
      ⟨8, true, 1042513868282886512186997462299093170567249920000000000⟩,
      ⟨10, true, 54397284568556480637405776690390198736660725760000000000⟩,
      ⟨12, false, 1263383126369561500843876510569614736734394777600000000000⟩,
      ⟨14, false, 67203411825577001894070819449572807637485171507200000000000⟩]⟩,
  ⟨2, 12, 1,
    [⟨15, true, 690452066304000⟩, ⟨17, true, 117376851271680000⟩, ⟨19, false, 5352384417988608000⟩,
      ⟨21, false, 12364008005553684480000⟩, ⟨23, false, 5170403347776995328000000⟩,
      ⟨25, false, 1333964063726464794624000000⟩, ⟨27, false, 217777389008367043215360000000⟩,
      ⟨29, false, 17683523987479403909087232000000⟩],
    [⟨15, false, 537627294604616015152566555596582461099881372057600000000000⟩,
      ⟨17, false, 13347019073372435916244030343643379914064999219200000000000⟩,
      ⟨19, true, 510725921307418451088692595573122652189386342400000000000⟩,
      ⟨21, true, 12762825993220239268280919149346934369969766400000000000⟩,
      ⟨23, true, 59552149114796471537297786112982242369208320000000000⟩,
      ⟨25, false, 647569759813203423642621702853213095041433600000000⟩,
      ⟨27, false, 9757933701430992287770930721351466693427200000000⟩,
      ⟨29, false, 58869799411736371461502020336995637657600000000⟩]⟩,
  ⟨2, 11, 2,
    [⟨2, true, 1219553378446855442006016000000⟩, ⟨4, true, 14518492600557802881024000000⟩,
      ⟨6, true, 84380982635720563752960000⟩, ⟨8, true, 296736192133288427520000⟩, ⟨10, true, 535238441798860800000⟩,
      ⟨12, false, 845113329156096000⟩, ⟨14, false, 11047233060864000⟩],
    [⟨0, false, 3006628568964331567194354989673952051200000000⟩,
      ⟨2, false, 52979445373515101496123922178487248486400000000⟩,
      ⟨4, true, 66541686793506629033872396727762651027865600000000⟩,
      ⟨6, true, 7906796783508935133178355700522914571878400000000000⟩,
      ⟨8, false, 591108157278147026945431516626720885508669440000000000⟩,
      ⟨10, false, 145638041482513670923572375589619810944092733440000000000⟩,
      ⟨12, false, 4574502925158836251995574670009180433796615372800000000000⟩,
      ⟨14, true, 118484064054850045151218936033044740991524379033600000000000⟩]⟩,
  ⟨2, 10, 3,
    [⟨15, false, 878757175296000⟩, ⟨17, false, 136583972388864000⟩, ⟨19, true, 14597412049059840000⟩,
      ⟨21, true, 16349101494947020800000⟩, ⟨23, true, 5377219481688075141120000⟩,
      ⟨25, true, 992717442773183102976000000⟩, ⟨27, true, 87110955603346817286144000000⟩],
    [⟨15, true, 947872512438800361209751488264357927932195032268800000000000⟩,
      ⟨17, false, 37685700913051583763512556264404837404418821324800000000000⟩,
      ⟨19, false, 1576762070750369242182975720896439699803996160000000000000⟩,
      ⟨21, false, 9969762146309942794580041339789639524978524160000000000⟩,
      ⟨23, true, 82031384069973590577587409349172346916700160000000000⟩,
      ⟨25, true, 1023177863985764880103908271471372754799820800000000⟩,
      ⟨27, true, 490541223909800227829679843719005392076800000000⟩,
      ⟨29, false, 46012867247801440775089875227496991948800000000⟩]⟩,
  ⟨2, 9, 4,
    [⟨4, false, 6452663378025690169344000000⟩, ⟨6, false, 69490220994122817208320000⟩,
      ⟨8, false, 341696221244392734720000⟩, ⟨10, false, 817455074747351040000⟩, ⟨12, true, 614627875749888000⟩,
      ⟨14, true, 14060114804736000⟩],
    [⟨0, true, 694960411563710807475047555690932469760000000⟩,
      ⟨2, true, 354156016713846390150196833470603958681600000000⟩,
      ⟨4, true, 2698176051079810846481428732432545428275200000000⟩,
      ⟨6, false, 11178673875004873860713984069438130125537280000000000⟩,
      ⟨8, false, 836628090936644422006282656395107143851704320000000000⟩,
      ⟨10, true, 142722139211189871865231444754552065496690196480000000000⟩,
      ⟨12, true, 15765123664122172041420680721232709149728650035200000000000⟩,
      ⟨14, true, 140963254073161516168050987138128328215212798771200000000000⟩]⟩,
  ⟨2, 8, 5,
    [⟨15, true, 1171676233728000⟩, ⟨17, true, 159347967787008000⟩, ⟨19, false, 31141145704660992000⟩,
      ⟨21, false, 21253831943431127040000⟩, ⟨23, false, 4963587213865915514880000⟩,
      ⟨25, false, 496358721386591551488000000⟩],
    [⟨15, true, 1127706032585292129344407897105026625721702390169600000000000⟩,
      ⟨17, true, 146032091038074887083611155524568744942122932633600000000000⟩,
      ⟨19, true, 1842093067483534825005490255999013001012392755200000000000⟩,
      ⟨21, false, 5804762828608091692896931964285415118161838080000000000⟩,
      ⟨23, false, 152331653694333365067834823102716412459745280000000000⟩,
      ⟨25, false, 188497188836059936210021107867139511943168000000000⟩,
      ⟨27, true, 5008150457161994107407967311781650707251200000000⟩,
      ⟨29, true, 16530544392659910218163589774512331161600000000⟩]⟩,
  ⟨2, 7, 6,
    [⟨6, true, 39708697710927324119040000⟩, ⟨8, true, 359680232888834457600000⟩, ⟨10, true, 1245645828186439680000⟩,
      ⟨14, false, 18746819739648000⟩],
    [⟨0, true, 1024243241047663766749900536531690455040000000⟩,
      ⟨2, false, 139888468887533497424177117431175577600000000000⟩,
      ⟨4, false, 54594106969114297582196078465040869071257600000000⟩,
      ⟨6, true, 3176995214242043044234148215421878350643200000000000⟩,
      ⟨8, true, 1929306866840530197787857163282936954229882880000000000⟩,
      ⟨10, true, 14990315267772348197714011834422857120486522880000000000⟩,
      ⟨12, false, 24924842636044431983941093702164440463302669107200000000000⟩,
      ⟨14, false, 1021866512915742286640156989818591402543502747238400000000000⟩]⟩,
  ⟨2, 6, 7,
    [⟨15, false, 1673823191040000⟩, ⟨17, false, 182111963185152000⟩, ⟨19, true, 62282291409321984000⟩,
      ⟨21, true, 26158562391915233280000⟩, ⟨23, true, 3309058142577277009920000⟩],
    [⟨15, false, 8174932103325938293121255918548731220348021977907200000000000⟩,
      ⟨17, false, 254378481163098190403709754784732652479827043942400000000000⟩,
      ⟨19, false, 506013758797129991284467610660098809408362905600000000000⟩,
      ⟨21, true, 21579287803526126180373905268360469761302200320000000000⟩,
      ⟨23, true, 80065396197872564308806673439039430517063680000000000⟩,
      ⟨25, false, 646183486313645007683866055737093730913484800000000⟩,
      ⟨27, false, 2969440545334992993238407023018696402534400000000⟩,
      ⟨29, true, 12951778462481620338762695678472329625600000000⟩]⟩,
  ⟨2, 5, 8,
    [⟨8, false, 287744186311067566080000⟩, ⟨10, false, 1868468742279659520000⟩, ⟨12, false, 1639007668666368000⟩,
      ⟨14, true, 26781171056640000⟩],
    [⟨0, false, 715340564289074530702839336135347404800000000⟩,
      ⟨2, false, 128856859892439137936766126913642876108800000000⟩,
      ⟨4, true, 37584905049457489584756660003324555165696000000000⟩,
      ⟨6, true, 7878986033534882154101473784693725687971840000000000⟩,
      ⟨8, false, 1383712825938999237438530738288468044818677760000000000⟩,
      ⟨10, false, 267054762164279651879102820181867493268463288320000000000⟩,
      ⟨12, true, 19167304996550440020071119828435923637627571404800000000000⟩,
      ⟨14, true, 2783673030600903827584368995179517551200082644172800000000000⟩]⟩,
  ⟨2, 4, 9,
    [⟨15, true, 2678117105664000⟩, ⟨17, true, 182111963185152000⟩, ⟨19, false, 124564582818643968000⟩,
      ⟨21, false, 26158562391915233280000⟩],
    [⟨15, true, 22269384244807230620674951961436140409600661153382400000000000⟩,
      ⟨17, true, 254378481163098190403709754784732652479827043942400000000000⟩,
      ⟨19, false, 2166144858575679676157577680017729573799696793600000000000⟩,
      ⟨21, false, 21579287803526126180373905268360469761302200320000000000⟩,
      ⟨23, true, 64467118795049037209249625888314533368299520000000000⟩,
      ⟨25, true, 646183486313645007683866055737093730913484800000000⟩,
      ⟨27, false, 1107979278319009235100713554507212206899200000000⟩,
      ⟨29, false, 12951778462481620338762695678472329625600000000⟩]⟩,
  ⟨2, 3, 10,
    [⟨10, true, 2491291656372879360000⟩, ⟨12, true, 6556030674665472000⟩, ⟨14, false, 42849873690624000⟩],
    [⟨0, false, 160336314482244952369737438854161367040000000⟩,
      ⟨2, true, 139492593599553108561671571803120389324800000000⟩,
      ⟨4, true, 14205361297190847318253355603619904015564800000000⟩,
      ⟨6, false, 9233484843174050756864681142352937610117120000000000⟩,
      ⟨8, false, 834091295712435405461661591146115509098905600000000000⟩,
      ⟨10, true, 385350178619145157323287655109505365203694387200000000000⟩,
      ⟨12, true, 18193941376476495605126594739735408831373089177600000000000⟩,
      ⟨14, false, 5567346061201807655168737990359035102400165288345600000000000⟩]⟩,
  ⟨2, 2, 11,
    [⟨15, false, 5356234211328000⟩, ⟨19, true, 249129165637287936000⟩],
    [⟨15, false, 44538768489614461241349903922872280819201322306764800000000000⟩,
      ⟨19, true, 4332289717151359352315155360035459147599393587200000000000⟩,
      ⟨23, false, 128934237590098074418499251776629066736599040000000000⟩,
      ⟨27, true, 2215958556638018470201427109014424413798400000000⟩]⟩,
  ⟨2, 1, 12,
    [⟨12, false, 26224122698661888000⟩, ⟨14, true, 85699747381248000⟩],
    [⟨0, true, 305116567477248408243922826308123361280000000⟩,
      ⟨2, true, 14120226834951095291201822031109894963200000000⟩,
      ⟨4, false, 26334288640743036749076003853454834820710400000000⟩,
      ⟨6, false, 1455176567211336542351578858744435735265280000000000⟩,
      ⟨8, true, 2032583200246730263094131252646524228856709120000000000⟩,
      ⟨10, true, 54512068014319917478790744271604882086454886400000000000⟩,
      ⟨12, false, 105204384602992158848587420003713975309338620723200000000000⟩,
      ⟨14, true, 9342445034901990319057970572819010031778339278028800000000000⟩]⟩,
  ⟨2, 0, 13,
    [⟨15, true, 21424936845312000⟩, ⟨17, false, 2913791410962432000⟩],
    [⟨15, true, 74739560279215922552463764582552080254226714224230400000000000⟩,
      ⟨17, false, 672061666282753243782640586715219600378802313625600000000000⟩,
      ⟨19, false, 2223415756777647110701235188960634739907520102400000000000⟩,
      ⟨21, true, 23656321584007364262578080547483311329006059520000000000⟩,
      ⟨23, true, 26724472503175488950349124404773819630223360000000000⟩,
      ⟨25, false, 371449283673886208585019627269801567374540800000000⟩,
      ⟨27, false, 289988836176296457572730118480291744972800000000⟩,
      ⟨29, true, 4820200698968227766610597946882365849600000000⟩]⟩,
  ⟨1, 14, 0,
    [⟨16, true, 8975876861952000⟩, ⟨18, true, 6408776079433728000⟩, ⟨20, true, 2435334910184816640000⟩,
      ⟨22, true, 715988463594336092160000⟩, ⟨24, true, 169382413673174366945280000⟩,
      ⟨26, true, 31053442506748633939968000000⟩, ⟨28, true, 3963548479952280186519552000000⟩,
      ⟨30, true, 265252859812191058636308480000000⟩],
    [⟨16, true, 14283651990802080541945365806355196048385350041600000000000⟩,
      ⟨18, false, 738440167744777012909958105814462883675766784000000000000⟩,
      ⟨20, false, 18000863538234419739302196639965867786140385280000000000⟩,
      ⟨22, true, 195076065737928755076487586286289713679564800000000000⟩,
      ⟨24, true, 7703348750266040469374873996565205431091200000000000⟩,
      ⟨26, true, 84030315283611172504718159839895659688755200000000⟩,
      ⟨28, true, 490067847951502846943961753580310888448000000000⟩,
      ⟨30, true, 1723945976773752624063719518153023160320000000⟩]⟩,
  ⟨1, 13, 1,
    [⟨1, false, 17683523987479403909087232000000⟩, ⟨3, false, 261332866810040451858432000000⟩,
      ⟨5, false, 2016457305633028177920000000⟩, ⟨7, false, 10754438963376150282240000⟩,
      ⟨9, false, 43836028383326699520000⟩, ⟨11, false, 139161994867703808000⟩, ⟨13, false, 305179813306368000⟩],
    [⟨1, false, 34041867900615043570798843182373058641920000000⟩,
      ⟨3, false, 8400572743669399990625941306243605269053440000000⟩,
      ⟨5, false, 1258069200096332122839494945912471708825026560000000⟩,
      ⟨7, false, 96603459012085043525857809034717974516203520000000000⟩,
      ⟨9, false, 1398477133110242894806682753143770207555158016000000000⟩,
      ⟨11, true, 186637882811348304091957287055075126765305200640000000000⟩,
      ⟨13, true, 3128929211837309803894578047688024184006587187200000000000⟩]⟩,
  ⟨1, 12, 2,
    [⟨16, false, 11047233060864000⟩, ⟨18, false, 7606019962404864000⟩, ⟨20, false, 2676192208994304000000⟩,
      ⟨22, false, 692384448311006330880000⟩, ⟨24, false, 134016854774379718901760000⟩,
      ⟨26, false, 17744824289570647965696000000⟩, ⟨28, false, 1219553378446855442006016000000⟩],
    [⟨16, true, 52919759834774921352125453643217611589099821465600000000000⟩,
      ⟨18, true, 2441061279902423493453643893832265905622482944000000000000⟩,
      ⟨20, false, 28591146718408355683925784527825863164517416960000000000⟩,
      ⟨22, false, 1456181481261506297697757251741620827292958720000000000⟩,
      ⟨24, false, 14950639103172227486289670783979180544491520000000000⟩,
      ⟨26, false, 45366934302451196865923870062593075629260800000000⟩,
      ⟨28, true, 258069454771292866255012517226940150579200000000⟩,
      ⟨30, true, 3060635251506138477046730424781457326080000000⟩]⟩,
  ⟨1, 11, 3,
    [⟨3, true, 87110955603346817286144000000⟩, ⟨5, true, 1240896803466478878720000000⟩,
      ⟨7, true, 9099909892087511777280000⟩, ⟨9, true, 44960029111104307200000⟩, ⟨11, true, 160571532539658240000⟩,
      ⟨13, true, 375605924069376000⟩],
    [⟨1, false, 50053631688633477767452372824291677306880000000⟩,
      ⟨3, false, 2931547599304834049843651892920950361948160000000⟩,
      ⟨5, true, 890668968205896387635612372425263702060564480000000⟩,
      ⟨7, true, 216625938390736158209499329350579700430274560000000000⟩,
      ⟨9, true, 16363489445364711255121185111551404671579979776000000000⟩,
      ⟨11, true, 124425255207565536061304858036716751176870133760000000000⟩,
      ⟨13, false, 17522003586288934901809637067052935430436888248320000000000⟩]⟩,
  ⟨1, 10, 4,
    [⟨16, true, 14060114804736000⟩, ⟨18, true, 9219418136248320000⟩, ⟨20, true, 2919482409811968000000⟩,
      ⟨22, true, 629440407555460300800000⟩, ⟨24, true, 89344569849586479267840000⟩,
      ⟨26, true, 6452663378025690169344000000⟩],
    [⟨16, false, 171403823889624966503344389676262352580624200499200000000000⟩,
      ⟨18, true, 1359035997839092201998016161581850861562861977600000000000⟩,
      ⟨20, true, 196267609787501900153411935710664877269088993280000000000⟩,
      ⟨22, true, 2725459561811530414238553544932105403383152640000000000⟩,
      ⟨24, true, 10414107243265051671021148072255551229132800000000000⟩,
      ⟨26, false, 40318335019387910550174493453241181378969600000000⟩,
      ⟨28, false, 406448416957758897629220288492364156108800000000⟩,
      ⟨30, false, 163661299568187289022586755897087754240000000⟩]⟩,
  ⟨1, 9, 5,
    [⟨5, false, 496358721386591551488000000⟩, ⟨7, false, 6618116285154554019840000⟩,
      ⟨9, false, 44142574036356956160000⟩, ⟨11, false, 186846874227965952000⟩, ⟨13, false, 478043903361024000⟩],
    [⟨1, true, 7953053865682091428105791842960214589440000000⟩,
      ⟨3, true, 6478178087510753479988781245594162713067520000000⟩,
      ⟨5, true, 374517777295960717614581544562849735130480640000000⟩,
      ⟨7, false, 190279540478349328156992654159292980107673600000000000⟩,
      ⟨9, false, 36085937986143744229544402630186444327661600768000000000⟩,
      ⟨11, false, 1804166200509700272888920441532392892064616939520000000000⟩,
      ⟨13, true, 4380500896572233725452409266763233857609222062080000000000⟩]⟩,
  ⟨1, 8, 6,
    [⟨16, false, 18746819739648000⟩, ⟨18, false, 11473053680664576000⟩, ⟨20, false, 3114114570466099200000⟩,
      ⟨22, false, 503552326044368240640000⟩, ⟨24, false, 39708697710927324119040000⟩],
    [⟨16, true, 30440569816463450335293402538134024365411401728000000000000⟩,
      ⟨18, false, 18045488119955783956935370001364418365639308083200000000000⟩,
      ⟨20, false, 424388632646688782009059260888941355012634705920000000000⟩,
      ⟨22, false, 2691522297867043467818588572374289478666158080000000000⟩,
      ⟨24, true, 2341677781886799306407052716300193151057920000000000⟩,
      ⟨26, true, 74442403430087676377757964502337673651814400000000⟩,
      ⟨28, true, 93861040931240490258258960731633142988800000000⟩,
      ⟨30, false, 1297670827789046274223906962128712499200000000⟩]⟩,
  ⟨1, 7, 7,
    [⟨7, true, 3309058142577277009920000⟩, ⟨9, true, 39237843587872849920000⟩, ⟨11, true, 217988019932626944000⟩,
      ⟨13, true, 637391871148032000⟩],
    [⟨1, true, 17956092007149028020583407152407102095360000000⟩,
      ⟨3, false, 2239318720948358299809446751776031784304640000000⟩,
      ⟨5, false, 1082125199658546216916954453254320032422297600000000⟩,
      ⟨7, true, 17564265274924553368337783460857813548400640000000000⟩,
      ⟨9, true, 42947624854208020115278126418975971046974291968000000000⟩,
      ⟨11, true, 4852584953095055906390889463431953295897935216640000000000⟩,
      ⟨13, true, 113893023310878076861762640935844080297839773614080000000000⟩]⟩,
  ⟨1, 6, 8,
    [⟨16, true, 26781171056640000⟩, ⟨18, true, 14751069017997312000⟩, ⟨20, true, 3114114570466099200000⟩,
      ⟨22, true, 287744186311067566080000⟩],
    [⟨16, true, 991425943099278836304863587280457378178091345510400000000000⟩,
      ⟨18, true, 49649196853488727618263110695807234008964870963200000000000⟩,
      ⟨20, true, 558157663088330580246263234308748119225380372480000000000⟩,
      ⟨22, true, 1019312217117139785267722667934174834159779840000000000⟩,
      ⟨24, false, 12043160220024555901979467358756585267527680000000000⟩,
      ⟨26, false, 39661339003096147472187367357109528376115200000000⟩,
      ⟨28, true, 164248554141618174477778838723707797504000000000⟩,
      ⟨30, true, 730896625776316027198391387535546777600000000⟩]⟩,
  ⟨1, 5, 9,
    [⟨9, false, 26158562391915233280000⟩, ⟨11, false, 249129165637287936000⟩, ⟨13, false, 910559815925760000⟩],
    [⟨1, false, 11482373979739613687957842175846126714880000000⟩,
      ⟨3, false, 1999540645614036880369887742042099144458240000000⟩,
      ⟨5, true, 674573975742588504323685345352504049915658240000000⟩,
      ⟨7, true, 155151009928500221420317087237577353010872320000000000⟩,
      ⟨9, false, 24087788376842781823632862748074471892749123584000000000⟩,
      ⟨11, false, 7901003705680411539892858485331513699731253493760000000000⟩,
      ⟨13, false, 442430590553795606270693335943086619618531428270080000000000⟩]⟩,
  ⟨1, 4, 10,
    [⟨16, false, 42849873690624000⟩, ⟨18, false, 19668092023996416000⟩, ⟨20, false, 2491291656372879360000⟩],
    [⟨16, false, 3775098973700182663889232582459974929378173989683200000000000⟩,
      ⟨18, false, 87010443226515663243460825263978566477965531545600000000000⟩,
      ⟨20, false, 439862246633465074802078399381110247290149273600000000000⟩,
      ⟨22, true, 1198491904534294857632469661500408719757803520000000000⟩,
      ⟨24, true, 10688661410385387299216260001097373345382400000000000⟩,
      ⟨26, false, 12128927343552189430822648249834930805145600000000⟩,
      ⟨28, false, 153612820434504203852873393834230284288000000000⟩,
      ⟨30, true, 144780252995003455874185387453961994240000000⟩]⟩,
  ⟨1, 3, 11,
    [⟨11, true, 249129165637287936000⟩, ⟨13, true, 1456895705481216000⟩],
    [⟨1, false, 1465062075079214977293287777275824046080000000⟩,
      ⟨3, true, 1999540645614036880369887742042099144458240000000⟩,
      ⟨5, true, 140528472089326920862852870451127915097620480000000⟩,
      ⟨7, false, 155151009928500221420317087237577353010872320000000000⟩,
      ⟨9, false, 13631884577887694759657664593728526415701213184000000000⟩,
      ⟨11, true, 7901003705680411539892858485331513699731253493760000000000⟩,
      ⟨13, true, 1099505725039630665088554725957571698259914737582080000000000⟩]⟩,
  ⟨1, 2, 12,
    [⟨16, true, 85699747381248000⟩, ⟨18, true, 26224122698661888000⟩],
    [⟨16, true, 9342445034901990319057970572819010031778339278028800000000000⟩,
      ⟨18, true, 105204384602992158848587420003713975309338620723200000000000⟩,
      ⟨20, true, 54512068014319917478790744271604882086454886400000000000⟩,
      ⟨22, false, 2032583200246730263094131252646524228856709120000000000⟩,
      ⟨24, false, 1455176567211336542351578858744435735265280000000000⟩,
      ⟨26, true, 26334288640743036749076003853454834820710400000000⟩,
      ⟨28, true, 14120226834951095291201822031109894963200000000⟩,
      ⟨30, false, 305116567477248408243922826308123361280000000⟩]⟩,
  ⟨1, 1, 13,
    [⟨13, false, 2913791410962432000⟩],
    [⟨1, true, 2930124150158429954586575554551648092160000000⟩,
      ⟨5, false, 281056944178653841725705740902255830195240960000000⟩,
      ⟨9, true, 27263769155775389519315329187457052831402426368000000000⟩,
      ⟨13, false, 2199011450079261330177109451915143396519829475164160000000000⟩]⟩,
  ⟨1, 0, 14,
    [⟨16, false, 342798989524992000⟩],
    [⟨16, false, 18684890069803980638115941145638020063556678556057600000000000⟩,
      ⟨18, false, 61061732254261374634365820737379150534498949529600000000000⟩,
      ⟨20, true, 283994382265367909944547509535866025522296258560000000000⟩,
      ⟨22, true, 614706455119843960918934003324385336628346880000000000⟩,
      ⟨24, false, 3340480099949820692958669278831170415493120000000000⟩,
      ⟨26, false, 5139200153768954912244106582817185254604800000000⟩,
      ⟨28, true, 34629092795332093261389875943193549209600000000⟩,
      ⟨30, true, 39803554937163325587804455107119022080000000⟩]⟩,
  ⟨0, 15, 0,
    [⟨0, true, 265252859812191058636308480000000⟩, ⟨2, true, 4573325169175707907522560000000⟩,
      ⟨4, true, 42345603418293591736320000000⟩, ⟨6, true, 282304022788623944908800000⟩,
      ⟨8, true, 1534260993416434483200000⟩, ⟨10, true, 7306004730554449920000⟩, ⟨12, true, 32043880397168640000⟩,
      ⟨14, true, 134638152929280000⟩],
    [⟨0, true, 818781271430727289261703314507038720000000000⟩,
      ⟨2, true, 297425445696929194333792343591695574630400000000⟩,
      ⟨4, true, 61607340820846508868569914111497517557350400000000⟩,
      ⟨6, true, 6871584650530990894121485726893586954321920000000000⟩,
      ⟨8, true, 264057717315818610463382738572443685497077760000000000⟩,
      ⟨10, false, 13868659490750693449443363716237267193550602240000000000⟩,
      ⟨12, false, 831797370299038977236398405202405341508350771200000000000⟩,
      ⟨14, true, 14283651990802080541945365806355196048385350041600000000000⟩]⟩,
  ⟨0, 14, 1,
    [⟨15, true, 8975876861952000⟩, ⟨17, true, 2136258693144576000⟩, ⟨19, true, 487066982036963328000⟩,
      ⟨21, true, 102284066227762298880000⟩, ⟨23, true, 18820268185908262993920000⟩,
      ⟨25, true, 2823040227886239449088000000⟩, ⟨27, true, 304888344611713860501504000000⟩,
      ⟨29, true, 17683523987479403909087232000000⟩],
    [⟨15, true, 114269215926416644335562926450841568387082800332800000000000⟩,
      ⟨17, false, 7066068921197171955658604299575907013328528998400000000000⟩,
      ⟨19, false, 160575999389060591790128332036120180922567884800000000000⟩,
      ⟨21, true, 2574428712122797728205701464386469416811888640000000000⟩,
      ⟨23, true, 88199400965411425739531366517776167049625600000000000⟩,
      ⟨25, true, 938327123681624433173838597987339467331993600000000⟩,
      ⟨27, true, 5304832921624536662683646775311469851443200000000⟩,
      ⟨29, true, 17409743997270033379163348745048607948800000000⟩]⟩,
  ⟨0, 13, 2,
    [⟨2, false, 1219553378446855442006016000000⟩, ⟨4, false, 20971155978583493050368000000⟩,
      ⟨6, false, 193579901340770705080320000⟩, ⟨8, false, 1285856832577583185920000⟩,
      ⟨10, false, 6958099743385190400000⟩, ⟨12, false, 32959419837087744000⟩, ⟨14, false, 143614029791232000⟩],
    [⟨0, true, 2387654502213634112242518482753012367360000000⟩,
      ⟨2, true, 327423797113185931124651872337806963507200000000⟩,
      ⟨4, false, 7064948508019960175523482401222234944307200000000⟩,
      ⟨6, false, 9945651663208076362470581195911865900728320000000000⟩,
      ⟨8, false, 1306571585598705122650380200871536856064327680000000000⟩,
      ⟨10, false, 40528625077805787187962412974152931543110123520000000000⟩,
      ⟨12, true, 2095180496668600478080274915772020078242745548800000000000⟩,
      ⟨14, true, 52919759834774921352125453643217611589099821465600000000000⟩]⟩,
  ⟨0, 12, 3,
    [⟨15, false, 9666328928256000⟩, ⟨17, false, 2253635544416256000⟩, ⟨19, false, 481714597618974720000⟩,
      ⟨21, false, 89920058222208614400000⟩, ⟨23, false, 13649864838131267665920000⟩,
      ⟨25, false, 1489076164159774654464000000⟩, ⟨27, false, 87110955603346817286144000000⟩],
    [⟨15, true, 423358078678199370817003629145740892712798571724800000000000⟩,
      ⟨17, true, 20413087994569607871902634643219286927393528217600000000000⟩,
      ⟨19, false, 350149921918357859298564263537002471266818457600000000000⟩,
      ⟨21, false, 15337254705343036996486620613733403786781655040000000000⟩,
      ⟨23, false, 147751550080207897276829152630758409418833920000000000⟩,
      ⟨25, false, 290757363868421009531216895134126372290560000000000⟩,
      ⟨27, true, 4453100779806455625087283946039996841984000000000⟩,
      ⟨29, true, 41460055414466338082338671591947029708800000000⟩]⟩,
  ⟨0, 11, 4,
    [⟨4, true, 6452663378025690169344000000⟩, ⟨6, true, 109198918705050141327360000⟩,
      ⟨8, true, 989120640444294758400000⟩, ⟨10, true, 6422861301586329600000⟩, ⟨12, true, 33804533166243840000⟩,
      ⟨14, true, 154661262852096000⟩],
    [⟨0, true, 618974066750697454951836506920939683840000000⟩,
      ⟨2, false, 274444351739670829628527950159319715020800000000⟩,
      ⟨4, false, 59476738285486668858348914326540416083558400000000⟩,
      ⟨6, true, 2038854879699141229292225495388951328849920000000000⟩,
      ⟨8, true, 1897679742876852149595811717498257741572997120000000000⟩,
      ⟨10, true, 186166666560319458111534788563772742487202856960000000000⟩,
      ⟨12, true, 2479322428490235773915299754237160355553869824000000000000⟩,
      ⟨14, false, 171403823889624966503344389676262352580624200499200000000000⟩]⟩,
  ⟨0, 10, 5,
    [⟨15, true, 10545086103552000⟩, ⟨17, true, 2390219516805120000⟩, ⟨19, true, 467117185569914880000⟩,
      ⟨21, true, 73570956727261593600000⟩, ⟨23, true, 8272645356443192524800000⟩,
      ⟨25, true, 496358721386591551488000000⟩],
    [⟨15, false, 1371230591116999732026755117410098820644993603993600000000000⟩,
      ⟨17, true, 17272612918481975891609921621185550477025293107200000000000⟩,
      ⟨19, true, 1926911992668727101481539984433442171070814617600000000000⟩,
      ⟨21, true, 25307016851652979791066661953523043311760179200000000000⟩,
      ⟨23, true, 65720166010234306699241743281586062502133760000000000⟩,
      ⟨25, false, 732420500117343870572691376337246382509260800000000⟩,
      ⟨27, false, 4943642003716255852916963789759002234060800000000⟩,
      ⟨29, true, 4552811833335102692751203635549962240000000000⟩]⟩,
  ⟨0, 9, 6,
    [⟨6, false, 39708697710927324119040000⟩, ⟨8, false, 647424419199902023680000⟩,
      ⟨10, false, 5605406226838978560000⟩, ⟨12, false, 34419161041993728000⟩, ⟨14, false, 168721377656832000⟩],
    [⟨0, false, 1313934478314408262426884062611872153600000000⟩,
      ⟨2, false, 79711664974175560521668883311284243660800000000⟩,
      ⟨4, true, 56778562234406858011867485594107870655283200000000⟩,
      ⟨6, true, 9139818995305732631421758574049178796687360000000000⟩,
      ⟨8, false, 1061051651940207727589529061103150597721292800000000000⟩,
      ⟨10, false, 328888805771509329976766233318324807983893053440000000000⟩,
      ⟨12, false, 18244446092612407815335980475469869505282519859200000000000⟩,
      ⟨14, true, 30440569816463450335293402538134024365411401728000000000000⟩]⟩,
  ⟨0, 8, 7,
    [⟨15, false, 11716762337280000⟩, ⟨17, false, 2549567484592128000⟩, ⟨19, false, 435976039865253888000⟩,
      ⟨21, false, 52317124783830466560000⟩, ⟨23, false, 3309058142577277009920000⟩],
    [⟨15, true, 243524558531707602682347220305072194923291213824000000000000⟩,
      ⟨17, false, 163304703956556862975221077145754295419148225740800000000000⟩,
      ⟨19, false, 3769005060152261926487030240432455172083207372800000000000⟩,
      ⟨21, false, 19502254023044888098169729989237628193598341120000000000⟩,
      ⟨23, true, 86611487684099058368593079821130349957611520000000000⟩,
      ⟨25, true, 920917688953403806782712484204385894452428800000000⟩,
      ⟨27, false, 64508453445738254491003522022648473190400000000⟩,
      ⟨29, false, 21083356225995012910914793410062293401600000000⟩]⟩,
  ⟨0, 7, 8,
    [⟨8, true, 287744186311067566080000⟩, ⟨10, true, 4359760398652538880000⟩, ⟨12, true, 34419161041993728000⟩,
      ⟨14, true, 187468197396480000⟩],
    [⟨0, true, 289691237266744495676983526080181698560000000⟩,
      ⟨2, true, 219600133861709057945846000742459821260800000000⟩,
      ⟨4, false, 2184455265292560429671407129067001584025600000000⟩,
      ⟨6, false, 12316814209547775675655906789471057147330560000000000⟩,
      ⟨8, false, 868255214900322470198328102179786356508590080000000000⟩,
      ⟨10, true, 313898490503736981779052221483901950863406530560000000000⟩,
      ⟨12, true, 43169288728656839799277074177634309968585188966400000000000⟩,
      ⟨14, true, 991425943099278836304863587280457378178091345510400000000000⟩]⟩,
  ⟨0, 6, 9,
    [⟨15, true, 13390585528320000⟩, ⟨17, true, 2731679447777280000⟩, ⟨19, true, 373693748455931904000⟩,
      ⟨21, true, 26158562391915233280000⟩],
    [⟨15, true, 7931407544794230690438908698243659025424730764083200000000000⟩,
      ⟨17, true, 417683185119655053378930831930486947898975269683200000000000⟩,
      ⟨19, true, 4275018818949391917771497851092553981491570278400000000000⟩,
      ⟨21, false, 2077033780481238082204175279122841567703859200000000000⟩,
      ⟨23, false, 166676883881971622677399753260169780474675200000000000⟩,
      ⟨25, false, 274734202639758799098846428467292163538944000000000⟩,
      ⟨27, true, 3033948998780731247729410545041344875724800000000⟩,
      ⟨29, true, 8131577763513392572152097731589963776000000000⟩]⟩,
  ⟨0, 5, 10,
    [⟨10, false, 2491291656372879360000⟩, ⟨12, false, 32780153373327360000⟩, ⟨14, false, 214249368453120000⟩],
    [⟨0, true, 425649327022330035025855810055165706240000000⟩,
      ⟨2, false, 90743273969269920009079873828816945152000000000⟩,
      ⟨4, false, 35400449784164929155085252874257553581670400000000⟩,
      ⟨6, true, 4437828176012893521554433004777331459358720000000000⟩,
      ⟨8, true, 2251968040839321707636858840468254401327267840000000000⟩,
      ⟨10, false, 46843728339457329899949401302034457594943242240000000000⟩,
      ⟨12, false, 62336593725207279819348194006070233606212760371200000000000⟩,
      ⟨14, false, 3775098973700182663889232582459974929378173989683200000000000⟩]⟩,
  ⟨0, 4, 11,
    [⟨15, false, 16068702633984000⟩, ⟨17, false, 2913791410962432000⟩, ⟨19, false, 249129165637287936000⟩],
    [⟨15, false, 30200791789601461311113860659679799435025391917465600000000000⟩,
      ⟨17, false, 672061666282753243782640586715219600378802313625600000000000⟩,
      ⟨19, false, 2108873960373712241613920171074824407691873484800000000000⟩,
      ⟨21, true, 23656321584007364262578080547483311329006059520000000000⟩,
      ⟨23, true, 102209765086922585468150127371855247106375680000000000⟩,
      ⟨25, false, 371449283673886208585019627269801567374540800000000⟩,
      ⟨27, false, 1925969720461722012628696990534132668825600000000⟩,
      ⟨29, true, 4820200698968227766610597946882365849600000000⟩]⟩,
  ⟨0, 3, 12,
    [⟨12, true, 26224122698661888000⟩, ⟨14, true, 257099242143744000⟩],
    [⟨0, false, 265313012540085082656118371201004339200000000⟩,
      ⟨2, false, 48749319630283188552591697974303444172800000000⟩,
      ⟨4, true, 21195088486974081836831897270637649566105600000000⟩,
      ⟨6, true, 4795656667161157235310248137575606150758400000000000⟩,
      ⟨8, false, 1417876745126886302175197249322138892228362240000000000⟩,
      ⟨10, false, 338506450279687827423338253807470907608751144960000000000⟩,
      ⟨12, true, 44142652348730784214221599266334824774839671193600000000000⟩,
      ⟨14, true, 9342445034901990319057970572819010031778339278028800000000000⟩]⟩,
  ⟨0, 2, 13,
    [⟨15, true, 21424936845312000⟩, ⟨17, true, 2913791410962432000⟩],
    [⟨15, true, 74739560279215922552463764582552080254226714224230400000000000⟩,
      ⟨17, true, 672061666282753243782640586715219600378802313625600000000000⟩,
      ⟨19, false, 2223415756777647110701235188960634739907520102400000000000⟩,
      ⟨21, false, 23656321584007364262578080547483311329006059520000000000⟩,
      ⟨23, true, 26724472503175488950349124404773819630223360000000000⟩,
      ⟨25, true, 371449283673886208585019627269801567374540800000000⟩,
      ⟨27, false, 289988836176296457572730118480291744972800000000⟩,
      ⟨29, false, 4820200698968227766610597946882365849600000000⟩]⟩,
  ⟨0, 1, 14,
    [⟨14, false, 342798989524992000⟩],
    [⟨0, false, 39803554937163325587804455107119022080000000⟩,
      ⟨2, true, 34629092795332093261389875943193549209600000000⟩,
      ⟨4, true, 5139200153768954912244106582817185254604800000000⟩,
      ⟨6, false, 3340480099949820692958669278831170415493120000000000⟩,
      ⟨8, false, 614706455119843960918934003324385336628346880000000000⟩,
      ⟨10, true, 283994382265367909944547509535866025522296258560000000000⟩,
      ⟨12, true, 61061732254261374634365820737379150534498949529600000000000⟩,
      ⟨14, false, 18684890069803980638115941145638020063556678556057600000000000⟩]⟩,
  ⟨0, 0, 15,
    [⟨15, false, 42849873690624000⟩],
    [⟨15, false, 149479120558431845104927529165104160508453428448460800000000000⟩,
      ⟨19, true, 4446831513555294221402470377921269479815040204800000000000⟩,
      ⟨23, false, 53448945006350977900698248809547639260446720000000000⟩,
      ⟨27, true, 579977672352592915145460236960583489945600000000⟩]⟩]

/-- degree 15: the rows of `V` -/
def certInverse15 : List (List CertEntry) := [
  [⟨0, false, 31161379952941⟩, ⟨2, true, 38120438364270⟩, ⟨4, true, 270123175072268280⟩,
    ⟨6, false, 1753035921178542000⟩, ⟨8, false, 2773557895273100208000⟩, ⟨10, true, 32741831017938186144000⟩,
    ⟨12, true, 11255502505638394523520000⟩, ⟨14, false, 116113396344365302122240000⟩],
  [⟨1, false, 7290575219628495⟩, ⟨5, true, 57204634263497917560⟩, ⟨9, false, 473957153719424431056000⟩,
    ⟨13, true, 1005605322033193588586880000⟩],
  [⟨0, true, 38120438364270⟩, ⟨2, false, 345871505619998100⟩, ⟨4, true, 1399121214897495600⟩,
    ⟨6, true, 6034585888533826260000⟩, ⟨8, false, 76218070796291904480000⟩, ⟨10, false, 56540281684104802584000000⟩,
    ⟨12, true, 868570525524057407251200000⟩, ⟨14, true, 101018654819597812846348800000⟩],
  [⟨3, false, 77478281386333450560⟩, ⟨7, true, 1205453822202668263680000⟩, ⟨11, false, 8026120267769882586147840000⟩],
  [⟨0, true, 270123175072268280⟩, ⟨2, true, 1399121214897495600⟩, ⟨4, false, 8163253712592731592000⟩,
    ⟨6, true, 56439816453073544400000⟩, ⟨8, true, 156484273485835794844800000⟩,
    ⟨10, false, 2930443374110440403255040000⟩, ⟨12, false, 955207878263129585853158400000⟩,
    ⟨14, true, 14991876612268362395363174400000⟩],
  [⟨1, true, 57204634263497917560⟩, ⟨5, false, 1744561921573704100271040⟩, ⟨9, true, 29145495817998483146391168000⟩,
    ⟨13, false, 96457468822663626114462305280000⟩],
  [⟨0, false, 1753035921178542000⟩, ⟨2, true, 6034585888533826260000⟩, ⟨4, true, 56439816453073544400000⟩,
    ⟨6, false, 225483411345246483156000000⟩, ⟨8, true, 2501459153420004322272000000⟩,
    ⟨10, true, 3768526641476783919724992000000⟩, ⟨12, false, 87335489484864879086949120000000⟩,
    ⟨14, false, 9744719797974435556986063360000000⟩],
  [⟨3, true, 1205453822202668263680000⟩, ⟨7, false, 46333848592623121560576000000⟩,
    ⟨11, true, 622773369515424924922245120000000⟩],
  [⟨0, false, 2773557895273100208000⟩, ⟨2, false, 76218070796291904480000⟩, ⟨4, true, 156484273485835794844800000⟩,
    ⟨6, true, 2501459153420004322272000000⟩, ⟨8, false, 6133271391783638911081728000000⟩,
    ⟨10, true, 115412557767073270948468224000000⟩, ⟨12, true, 71648024532871879609842124800000000⟩,
    ⟨14, false, 1793197978709410276820633456640000000⟩],
  [⟨1, false, 473957153719424431056000⟩, ⟨5, true, 29145495817998483146391168000⟩,
    ⟨9, false, 1246540836208207791882171340800000⟩, ⟨13, true, 9356801949927535789201420929024000000⟩],
  [⟨0, true, 32741831017938186144000⟩, ⟨2, false, 56540281684104802584000000⟩,
    ⟨4, false, 2930443374110440403255040000⟩, ⟨6, true, 3768526641476783919724992000000⟩,
    ⟨8, true, 115412557767073270948468224000000⟩, ⟨10, false, 153024454505731295902917325824000000⟩,
    ⟨12, true, 4786076736403700615648440750080000000⟩, ⟨14, true, 828457466163747547891132656967680000000⟩],
  [⟨3, false, 8026120267769882586147840000⟩, ⟨7, true, 622773369515424924922245120000000⟩,
    ⟨11, false, 31714487083313394982355457884160000000⟩],
  [⟨0, true, 11255502505638394523520000⟩, ⟨2, true, 868570525524057407251200000⟩,
    ⟨4, false, 955207878263129585853158400000⟩, ⟨6, false, 87335489484864879086949120000000⟩,
    ⟨8, true, 71648024532871879609842124800000000⟩, ⟨10, true, 4786076736403700615648440750080000000⟩,
    ⟨12, false, 3429626705644419511518653407641600000000⟩, ⟨14, true, 178126931875945994738476842671308800000000⟩],
  [⟨1, true, 1005605322033193588586880000⟩, ⟨5, false, 96457468822663626114462305280000⟩,
    ⟨9, true, 9356801949927535789201420929024000000⟩, ⟨13, false, 754690758510034455102872299023482880000000⟩],
  [⟨0, false, 116113396344365302122240000⟩, ⟨2, true, 101018654819597812846348800000⟩,
    ⟨4, true, 14991876612268362395363174400000⟩, ⟨6, false, 9744719797974435556986063360000000⟩,
    ⟨8, false, 1793197978709410276820633456640000000⟩, ⟨10, true, 828457466163747547891132656967680000000⟩,
    ⟨12, true, 178126931875945994738476842671308800000000⟩,
    ⟨14, false, 54506841154039474389973913857420492800000000⟩],
  [⟨15, false, 3488437833858526360958330486874911539200000000⟩,
    ⟨19, true, 103777004003825276407812053119795200000000⟩, ⟨23, false, 1247353618641964992048163553280000000⟩,
    ⟨27, true, 13535108097168045764030054400000⟩],
  [⟨16, false, 54506841154039474389973913857420492800000000⟩,
    ⟨18, false, 178126931875945994738476842671308800000000⟩, ⟨20, true, 828457466163747547891132656967680000000⟩,
    ⟨22, true, 1793197978709410276820633456640000000⟩, ⟨24, false, 9744719797974435556986063360000000⟩,
    ⟨26, false, 14991876612268362395363174400000⟩, ⟨28, true, 101018654819597812846348800000⟩,
    ⟨30, true, 116113396344365302122240000⟩],
  [⟨17, false, 230648516484153452414002350017740800000000⟩, ⟨21, true, 8118742300840823356156179087360000000⟩,
    ⟨25, false, 127479709864061839780470374400000⟩, ⟨29, true, 1654271023256295616972800000⟩],
  [⟨16, false, 178126931875945994738476842671308800000000⟩, ⟨18, false, 3429626705644419511518653407641600000000⟩,
    ⟨20, false, 4786076736403700615648440750080000000⟩, ⟨22, true, 71648024532871879609842124800000000⟩,
    ⟨24, true, 87335489484864879086949120000000⟩, ⟨26, false, 955207878263129585853158400000⟩,
    ⟨28, false, 868570525524057407251200000⟩, ⟨30, true, 11255502505638394523520000⟩],
  [⟨15, true, 103777004003825276407812053119795200000000⟩, ⟨19, false, 15158545440862331144049238425600000000⟩,
    ⟨23, true, 490721827577165048235571200000000⟩, ⟨27, false, 8603815382718585392563200000⟩],
  [⟨16, true, 828457466163747547891132656967680000000⟩, ⟨18, false, 4786076736403700615648440750080000000⟩,
    ⟨20, false, 153024454505731295902917325824000000⟩, ⟨22, false, 115412557767073270948468224000000⟩,
    ⟨24, true, 3768526641476783919724992000000⟩, ⟨26, true, 2930443374110440403255040000⟩,
    ⟨28, false, 56540281684104802584000000⟩, ⟨30, false, 32741831017938186144000⟩],
  [⟨17, true, 8118742300840823356156179087360000000⟩, ⟨21, false, 768420198456248649253662720000000⟩,
    ⟨25, true, 23815066621419775641139200000⟩, ⟨29, false, 483608989257986592000000⟩],
  [⟨16, true, 1793197978709410276820633456640000000⟩, ⟨18, true, 71648024532871879609842124800000000⟩,
    ⟨20, false, 115412557767073270948468224000000⟩, ⟨22, false, 6133271391783638911081728000000⟩,
    ⟨24, false, 2501459153420004322272000000⟩, ⟨26, true, 156484273485835794844800000⟩,
    ⟨28, true, 76218070796291904480000⟩, ⟨30, false, 2773557895273100208000⟩],
  [⟨15, false, 1247353618641964992048163553280000000⟩, ⟨19, true, 490721827577165048235571200000000⟩,
    ⟨23, false, 34063023561885604226304000000⟩, ⟨27, true, 1066152696039357413760000⟩],
  [⟨16, false, 9744719797974435556986063360000000⟩, ⟨18, true, 87335489484864879086949120000000⟩,
    ⟨20, true, 3768526641476783919724992000000⟩, ⟨22, false, 2501459153420004322272000000⟩,
    ⟨24, false, 225483411345246483156000000⟩, ⟨26, false, 56439816453073544400000⟩,
    ⟨28, true, 6034585888533826260000⟩, ⟨30, true, 1753035921178542000⟩],
  [⟨17, false, 127479709864061839780470374400000⟩, ⟨21, true, 23815066621419775641139200000⟩,
    ⟨25, false, 1440434537410671989222400⟩, ⟨29, true, 54542596182813648000⟩],
  [⟨16, false, 14991876612268362395363174400000⟩, ⟨18, false, 955207878263129585853158400000⟩,
    ⟨20, true, 2930443374110440403255040000⟩, ⟨22, true, 156484273485835794844800000⟩,
    ⟨24, false, 56439816453073544400000⟩, ⟨26, false, 8163253712592731592000⟩, ⟨28, false, 1399121214897495600⟩,
    ⟨30, true, 270123175072268280⟩],
  [⟨15, true, 13535108097168045764030054400000⟩, ⟨19, false, 8603815382718585392563200000⟩,
    ⟨23, true, 1066152696039357413760000⟩, ⟨27, false, 69864814565054510400⟩],
  [⟨16, true, 101018654819597812846348800000⟩, ⟨18, false, 868570525524057407251200000⟩,
    ⟨20, false, 56540281684104802584000000⟩, ⟨22, true, 76218070796291904480000⟩,
    ⟨24, true, 6034585888533826260000⟩, ⟨26, false, 1399121214897495600⟩, ⟨28, false, 345871505619998100⟩,
    ⟨30, false, 38120438364270⟩],
  [⟨17, true, 1654271023256295616972800000⟩, ⟨21, false, 483608989257986592000000⟩,
    ⟨25, true, 54542596182813648000⟩, ⟨29, false, 7094408569930800⟩],
  [⟨16, true, 116113396344365302122240000⟩, ⟨18, true, 11255502505638394523520000⟩,
    ⟨20, false, 32741831017938186144000⟩, ⟨22, false, 2773557895273100208000⟩, ⟨24, true, 1753035921178542000⟩,
    ⟨26, true, 270123175072268280⟩, ⟨28, false, 38120438364270⟩, ⟨30, false, 31161379952941⟩]]

/-- degree 15: the denominator -/
def certDen15 : ℕ := 11159265605064270393323865655574397362591515552032089598223554969600000000000000

end E3x.Coefficients
