import Verif.Model.ShippedHarmonics
import Verif.Model.TensorConversion

/-!
# The tensor-conversion matrices shipped with the package

The content of so3/_tensor_conversion_lut.npz: the arrays `s2t0`, …, `s2t15` and `t2s0`, …, `t2s15`. The nonzero entries
of each row are listed with their columns; every float64 number is written exactly, as `± M / 2ᴱ`. Generated from the
archive.
-/

namespace E3x

/-- The array `s2t0`: so3/_tensor_conversion_lut.npz. -/
def shippedS2t0 : List (List ShippedEntry) := [
  [⟨0, false, 1, 0⟩]]

/-- The array `t2s0`: so3/_tensor_conversion_lut.npz. -/
def shippedT2s0 : List (List ShippedEntry) := [
  [⟨0, false, 1, 0⟩]]

/-- The array `s2t1`: so3/_tensor_conversion_lut.npz. -/
def shippedS2t1 : List (List ShippedEntry) := [
  [⟨1, false, 1, 0⟩],
  [⟨2, false, 1, 0⟩],
  [⟨0, false, 1, 0⟩]]

/-- The array `t2s1`: so3/_tensor_conversion_lut.npz. -/
def shippedT2s1 : List (List ShippedEntry) := [
  [⟨2, false, 1, 0⟩],
  [⟨0, false, 1, 0⟩],
  [⟨1, false, 1, 0⟩]]

/-- The array `s2t2`: so3/_tensor_conversion_lut.npz. -/
def shippedS2t2 : List (List ShippedEntry) := [
  [⟨1, false, 1300077228592327, 51⟩],
  [⟨4, false, 1300077228592327, 51⟩],
  [⟨0, true, 6004799503160661, 54⟩, ⟨3, true, 6004799503160661, 54⟩, ⟨5, false, 6004799503160661, 53⟩],
  [⟨2, false, 1300077228592327, 51⟩],
  [⟨0, false, 1300077228592327, 51⟩, ⟨3, true, 1300077228592327, 51⟩]]

/-- The array `t2s2`: so3/_tensor_conversion_lut.npz. -/
def shippedT2s2 : List (List ShippedEntry) := [
  [⟨2, true, 1, 1⟩, ⟨4, false, 3900231685776981, 52⟩],
  [⟨0, false, 3900231685776981, 51⟩],
  [⟨3, false, 3900231685776981, 51⟩],
  [⟨2, true, 1, 1⟩, ⟨4, true, 3900231685776981, 52⟩],
  [⟨1, false, 3900231685776981, 51⟩],
  [⟨2, false, 1, 0⟩]]

/-- The array `s2t3`: so3/_tensor_conversion_lut.npz. -/
def shippedS2t3 : List (List ShippedEntry) := [
  [⟨1, false, 5696652996790543, 54⟩, ⟨6, true, 5696652996790543, 54⟩],
  [⟨4, false, 2325648847305581, 53⟩],
  [⟨1, true, 2941738958092313, 55⟩, ⟨6, true, 4412608437138469, 54⟩, ⟨8, false, 2941738958092313, 53⟩],
  [⟨2, true, 3602879701896397, 54⟩, ⟨7, true, 3602879701896397, 54⟩, ⟨9, false, 3602879701896397, 53⟩],
  [⟨0, true, 4412608437138469, 54⟩, ⟨3, true, 2941738958092313, 55⟩, ⟨5, false, 2941738958092313, 53⟩],
  [⟨2, false, 2325648847305581, 53⟩, ⟨7, true, 2325648847305581, 53⟩],
  [⟨0, false, 5696652996790543, 54⟩, ⟨3, true, 5696652996790543, 54⟩]]

/-- The array `t2s3`: so3/_tensor_conversion_lut.npz. -/
def shippedT2s3 : List (List ShippedEntry) := [
  [⟨4, true, 4596467122019239, 52⟩, ⟨6, false, 2967006769161741, 51⟩],
  [⟨0, false, 8307618953652875, 52⟩, ⟨2, true, 4596467122019239, 52⟩],
  [⟨3, true, 7505999378950827, 53⟩, ⟨5, false, 4360591588697965, 51⟩],
  [⟨4, true, 4596467122019239, 52⟩, ⟨6, true, 8307618953652875, 52⟩],
  [⟨1, false, 4360591588697965, 50⟩],
  [⟨4, false, 4596467122019239, 51⟩, ⟨6, false, 2373605415329393, 52⟩],
  [⟨0, true, 2967006769161741, 51⟩, ⟨2, true, 4596467122019239, 52⟩],
  [⟨3, true, 7505999378950827, 53⟩, ⟨5, true, 4360591588697965, 51⟩],
  [⟨0, true, 2373605415329393, 52⟩, ⟨2, false, 4596467122019239, 51⟩],
  [⟨3, false, 7505999378950827, 52⟩]]

/-- The array `s2t4`: so3/_tensor_conversion_lut.npz. -/
def shippedS2t4 : List (List ShippedEntry) := [
  [⟨1, false, 3044989109332749, 54⟩, ⟨6, true, 3044989109332749, 54⟩],
  [⟨4, false, 4306264895696745, 55⟩, ⟨11, true, 4306264895696745, 55⟩],
  [⟨1, true, 4603590816111155, 56⟩, ⟨6, true, 4603590816111155, 56⟩, ⟨8, false, 4603590816111155, 55⟩],
  [⟨4, true, 1627615141940155, 55⟩, ⟨11, true, 4882845425820465, 55⟩, ⟨13, false, 1627615141940155, 53⟩],
  [⟨0, false, 3088182601625483, 55⟩, ⟨3, false, 8235153604334621, 58⟩, ⟨5, true, 8235153604334621, 56⟩,
    ⟨10, false, 3088182601625483, 55⟩, ⟨12, true, 8235153604334621, 56⟩, ⟨14, false, 8235153604334621, 55⟩],
  [⟨2, true, 4882845425820465, 55⟩, ⟨7, true, 1627615141940155, 55⟩, ⟨9, false, 1627615141940155, 53⟩],
  [⟨0, true, 4603590816111155, 55⟩, ⟨5, false, 4603590816111155, 55⟩, ⟨10, false, 4603590816111155, 55⟩,
    ⟨12, true, 4603590816111155, 55⟩],
  [⟨2, false, 4306264895696745, 55⟩, ⟨7, true, 4306264895696745, 55⟩],
  [⟨0, false, 3044989109332749, 54⟩, ⟨3, true, 3044989109332749, 54⟩, ⟨10, false, 3044989109332749, 54⟩]]

/-- The array `t2s4`: so3/_tensor_conversion_lut.npz. -/
def shippedT2s4 : List (List ShippedEntry) := [
  [⟨4, false, 7, 4⟩, ⟨6, true, 4405780273231379, 51⟩, ⟨8, false, 1040767761978967, 49⟩],
  [⟨0, false, 6660913676665389, 51⟩, ⟨2, true, 2937186848820919, 50⟩],
  [⟨5, true, 8307618953652875, 52⟩, ⟨7, false, 981245256180899, 48⟩],
  [⟨4, false, 7, 3⟩, ⟨8, true, 2497842628749521, 50⟩],
  [⟨1, false, 2747486717306517, 49⟩, ⟨3, true, 8307618953652875, 52⟩],
  [⟨4, true, 21, 4⟩, ⟨6, false, 4405780273231379, 51⟩, ⟨8, false, 6660913676665389, 54⟩],
  [⟨0, true, 6660913676665389, 51⟩, ⟨2, true, 2937186848820919, 50⟩],
  [⟨5, true, 8307618953652875, 52⟩, ⟨7, true, 2747486717306517, 49⟩],
  [⟨2, false, 2937186848820919, 49⟩],
  [⟨5, false, 8307618953652875, 51⟩, ⟨7, false, 6279969639557753, 52⟩],
  [⟨4, false, 7, 4⟩, ⟨6, false, 4405780273231379, 51⟩, ⟨8, false, 1040767761978967, 49⟩],
  [⟨1, true, 981245256180899, 48⟩, ⟨3, true, 8307618953652875, 52⟩],
  [⟨4, true, 21, 4⟩, ⟨6, true, 4405780273231379, 51⟩, ⟨8, false, 6660913676665389, 54⟩],
  [⟨1, true, 6279969639557753, 52⟩, ⟨3, false, 8307618953652875, 51⟩],
  [⟨4, false, 21, 3⟩, ⟨8, true, 6660913676665389, 53⟩]]

/-- The array `s2t5`: so3/_tensor_conversion_lut.npz. -/
def shippedS2t5 : List (List ShippedEntry) := [
  [⟨1, false, 6419400690599309, 56⟩, ⟨6, true, 6419400690599309, 56⟩, ⟨15, false, 6419400690599309, 56⟩],
  [⟨4, false, 8119970958220665, 57⟩, ⟨11, true, 8119970958220665, 57⟩],
  [⟨1, true, 1435421631898915, 55⟩, ⟨6, true, 7655582036794213, 59⟩, ⟨8, false, 7655582036794213, 57⟩,
    ⟨15, false, 4784738772996383, 56⟩, ⟨17, true, 7655582036794213, 57⟩],
  [⟨4, true, 1172016854635161, 55⟩, ⟨11, true, 1172016854635161, 55⟩, ⟨13, false, 1172016854635161, 54⟩],
  [⟨1, false, 7087691725121771, 59⟩, ⟨6, false, 7087691725121771, 59⟩, ⟨8, true, 7087691725121771, 58⟩,
    ⟨15, false, 4429807328201107, 56⟩, ⟨17, true, 5315768793841329, 56⟩, ⟨19, false, 7087691725121771, 56⟩],
  [⟨2, false, 857828500451523, 54⟩, ⟨7, false, 285942833483841, 54⟩, ⟨9, true, 285942833483841, 52⟩,
    ⟨16, false, 857828500451523, 54⟩, ⟨18, true, 285942833483841, 52⟩, ⟨20, false, 285942833483841, 51⟩],
  [⟨0, false, 4429807328201107, 56⟩, ⟨3, false, 7087691725121771, 59⟩, ⟨5, true, 5315768793841329, 56⟩,
    ⟨10, false, 7087691725121771, 59⟩, ⟨12, true, 7087691725121771, 58⟩, ⟨14, false, 7087691725121771, 56⟩],
  [⟨2, true, 1172016854635161, 54⟩, ⟨9, false, 1172016854635161, 54⟩, ⟨16, false, 1172016854635161, 54⟩,
    ⟨18, true, 1172016854635161, 54⟩],
  [⟨0, true, 4784738772996383, 56⟩, ⟨3, false, 7655582036794213, 59⟩, ⟨5, false, 7655582036794213, 57⟩,
    ⟨10, false, 1435421631898915, 55⟩, ⟨12, true, 7655582036794213, 57⟩],
  [⟨2, false, 8119970958220665, 57⟩, ⟨7, true, 8119970958220665, 57⟩, ⟨16, false, 8119970958220665, 57⟩],
  [⟨0, false, 6419400690599309, 56⟩, ⟨3, true, 6419400690599309, 56⟩, ⟨10, false, 6419400690599309, 56⟩]]

/-- The array `t2s5`: so3/_tensor_conversion_lut.npz. -/
def shippedT2s5 : List (List ShippedEntry) := [
  [⟨6, false, 4578621168132863, 52⟩, ⟨8, true, 4768851945039169, 50⟩, ⟨10, false, 101204296776233, 45⟩],
  [⟨0, false, 2409155942770815, 49⟩, ⟨2, true, 1457149205428635, 48⟩, ⟨4, false, 4578621168132863, 52⟩],
  [⟨5, false, 7093169413108531, 53⟩, ⟨7, true, 4326390342305575, 50⟩, ⟨9, false, 3122303285936901, 49⟩],
  [⟨6, false, 4578621168132863, 51⟩, ⟨8, false, 8477959013402967, 53⟩, ⟨10, true, 286334107952269, 46⟩],
  [⟨1, false, 2497842628749521, 48⟩, ⟨3, true, 5768520456407433, 50⟩],
  [⟨6, true, 6867931752199295, 51⟩, ⟨8, false, 1854553534181899, 49⟩, ⟨10, false, 5371232921587391, 52⟩],
  [⟨0, true, 286334107952269, 46⟩, ⟨2, true, 8477959013402967, 53⟩, ⟨4, false, 4578621168132863, 51⟩],
  [⟨5, false, 7093169413108531, 52⟩, ⟨9, true, 3746763943124281, 49⟩],
  [⟨0, true, 3791458532885217, 54⟩, ⟨2, false, 6888341698389911, 50⟩, ⟨4, true, 6867931752199295, 51⟩],
  [⟨5, true, 2659938529915699, 50⟩, ⟨7, false, 4326390342305575, 50⟩, ⟨9, false, 2497842628749521, 51⟩],
  [⟨6, false, 4578621168132863, 52⟩, ⟨8, false, 1457149205428635, 48⟩, ⟨10, false, 2409155942770815, 49⟩],
  [⟨1, true, 2497842628749521, 48⟩, ⟨3, true, 5768520456407433, 50⟩],
  [⟨6, true, 6867931752199295, 51⟩, ⟨8, true, 6888341698389911, 50⟩, ⟨10, true, 3791458532885217, 54⟩],
  [⟨3, false, 5768520456407433, 49⟩],
  [⟨6, false, 6867931752199295, 50⟩, ⟨8, false, 6358469260052225, 51⟩, ⟨10, true, 8846736576732173, 53⟩],
  [⟨0, false, 101204296776233, 45⟩, ⟨2, false, 4768851945039169, 50⟩, ⟨4, false, 4578621168132863, 52⟩],
  [⟨5, false, 7093169413108531, 53⟩, ⟨7, false, 4326390342305575, 50⟩, ⟨9, false, 3122303285936901, 49⟩],
  [⟨0, false, 5371232921587391, 52⟩, ⟨2, true, 1854553534181899, 49⟩, ⟨4, true, 6867931752199295, 51⟩],
  [⟨5, true, 2659938529915699, 50⟩, ⟨7, true, 4326390342305575, 50⟩, ⟨9, false, 2497842628749521, 51⟩],
  [⟨0, true, 8846736576732173, 53⟩, ⟨2, true, 6358469260052225, 51⟩, ⟨4, false, 6867931752199295, 50⟩],
  [⟨5, false, 2659938529915699, 49⟩, ⟨9, true, 2497842628749521, 50⟩]]

/-- The array `s2t6`: so3/_tensor_conversion_lut.npz. -/
def shippedS2t6 : List (List ShippedEntry) := [
  [⟨1, false, 3352422674579747, 56⟩, ⟨6, true, 3352422674579747, 56⟩, ⟨15, false, 3352422674579747, 56⟩],
  [⟨4, false, 967761066803011, 55⟩, ⟨11, true, 967761066803011, 55⟩, ⟨22, false, 967761066803011, 55⟩],
  [⟨1, true, 6602475286511095, 58⟩, ⟨8, false, 6602475286511095, 58⟩, ⟨15, false, 6602475286511095, 58⟩,
    ⟨17, true, 6602475286511095, 58⟩],
  [⟨4, true, 5424486974688767, 58⟩, ⟨11, true, 3616324649792511, 59⟩, ⟨13, false, 3616324649792511, 57⟩,
    ⟨22, false, 4520405812240639, 57⟩, ⟨24, true, 3616324649792511, 57⟩],
  [⟨1, false, 6027207749654185, 59⟩, ⟨6, false, 3616324649792511, 59⟩, ⟨8, true, 1205441549930837, 56⟩,
    ⟨15, false, 6027207749654185, 59⟩, ⟨17, true, 1205441549930837, 56⟩, ⟨19, false, 1205441549930837, 55⟩],
  [⟨4, false, 476492610498129, 56⟩, ⟨11, false, 476492610498129, 56⟩, ⟨13, true, 476492610498129, 55⟩,
    ⟨22, false, 2382463052490645, 56⟩, ⟨24, true, 1429477831494387, 55⟩, ⟨26, false, 476492610498129, 53⟩],
  [⟨0, true, 6238752730556531, 58⟩, ⟨3, true, 4991002184445225, 60⟩, ⟨5, false, 3743251638333919, 57⟩,
    ⟨10, true, 4991002184445225, 60⟩, ⟨12, false, 4991002184445225, 59⟩, ⟨14, true, 4991002184445225, 57⟩,
    ⟨21, true, 6238752730556531, 58⟩, ⟨23, false, 3743251638333919, 57⟩, ⟨25, true, 4991002184445225, 57⟩,
    ⟨27, false, 4991002184445225, 56⟩],
  [⟨2, false, 2382463052490645, 56⟩, ⟨7, false, 476492610498129, 56⟩, ⟨9, true, 1429477831494387, 55⟩,
    ⟨16, false, 476492610498129, 56⟩, ⟨18, true, 476492610498129, 55⟩, ⟨20, false, 476492610498129, 53⟩],
  [⟨0, false, 4520405812240639, 57⟩, ⟨3, false, 1205441549930837, 59⟩, ⟨5, true, 1205441549930837, 55⟩,
    ⟨10, true, 1205441549930837, 59⟩, ⟨14, false, 1205441549930837, 55⟩, ⟨21, true, 4520405812240639, 57⟩,
    ⟨23, false, 1205441549930837, 55⟩, ⟨25, true, 1205441549930837, 55⟩],
  [⟨2, true, 4520405812240639, 57⟩, ⟨7, false, 3616324649792511, 59⟩, ⟨9, false, 3616324649792511, 57⟩,
    ⟨16, false, 5424486974688767, 58⟩, ⟨18, true, 3616324649792511, 57⟩],
  [⟨0, true, 4951856464883321, 57⟩, ⟨3, false, 6602475286511095, 59⟩, ⟨5, false, 6602475286511095, 58⟩,
    ⟨10, false, 6602475286511095, 59⟩, ⟨12, true, 6602475286511095, 58⟩, ⟨21, true, 4951856464883321, 57⟩,
    ⟨23, false, 6602475286511095, 58⟩],
  [⟨2, false, 967761066803011, 55⟩, ⟨7, true, 967761066803011, 55⟩, ⟨16, false, 967761066803011, 55⟩],
  [⟨0, false, 3352422674579747, 56⟩, ⟨3, true, 3352422674579747, 56⟩, ⟨10, false, 3352422674579747, 56⟩,
    ⟨21, true, 3352422674579747, 56⟩]]

/-- The array `t2s6`: so3/_tensor_conversion_lut.npz. -/
def shippedT2s6 : List (List ShippedEntry) := [
  [⟨6, true, 4728779608739021, 54⟩, ⟨8, false, 6730283888029373, 51⟩, ⟨10, true, 2262065095567183, 48⟩,
    ⟨12, false, 623914014851597, 47⟩],
  [⟨0, false, 3856923000900781, 49⟩, ⟨2, true, 6143880506478769, 49⟩, ⟨4, false, 6730283888029373, 51⟩],
  [⟨7, false, 2128302638570647, 50⟩, ⟨9, true, 2523856458011015, 48⟩, ⟨11, false, 5370506873256631, 49⟩],
  [⟨6, true, 21, 4⟩, ⟨8, false, 6730283888029373, 51⟩, ⟨10, false, 7819484280972979, 51⟩,
    ⟨12, true, 3554419236124249, 49⟩],
  [⟨1, false, 998783290453215, 46⟩, ⟨3, true, 6169426897360259, 49⟩, ⟨5, false, 2128302638570647, 50⟩],
  [⟨6, false, 7093169413108531, 52⟩, ⟨8, true, 6730283888029373, 50⟩, ⟨10, false, 5138518241782243, 50⟩,
    ⟨12, false, 2117526353435723, 50⟩],
  [⟨0, true, 68536009207183, 43⟩, ⟨4, false, 6730283888029373, 50⟩],
  [⟨7, false, 2128302638570647, 49⟩, ⟨9, false, 8973711850705831, 52⟩, ⟨11, true, 1899325601517589, 47⟩],
  [⟨0, false, 2117526353435723, 51⟩, ⟨2, false, 6143880506478769, 49⟩, ⟨4, true, 2523856458011015, 48⟩],
  [⟨7, true, 6384907915711941, 50⟩, ⟨9, false, 3925998934683801, 49⟩, ⟨11, false, 8907182131254901, 51⟩],
  [⟨6, true, 21, 4⟩, ⟨8, true, 6730283888029373, 51⟩, ⟨10, false, 7819484280972979, 51⟩,
    ⟨12, false, 3554419236124249, 49⟩],
  [⟨1, true, 1899325601517589, 47⟩, ⟨3, true, 8973711850705831, 52⟩, ⟨5, false, 2128302638570647, 49⟩],
  [⟨6, false, 21, 3⟩, ⟨10, true, 7819484280972979, 50⟩],
  [⟨1, true, 1571855670221453, 51⟩, ⟨3, false, 911392609837311, 46⟩, ⟨5, true, 6384907915711941, 50⟩],
  [⟨6, true, 4728779608739021, 50⟩, ⟨8, false, 6730283888029373, 50⟩, ⟨10, false, 5361932078381471, 51⟩,
    ⟨12, true, 2117526353435723, 50⟩],
  [⟨0, false, 3856923000900781, 49⟩, ⟨2, false, 6143880506478769, 49⟩, ⟨4, false, 6730283888029373, 51⟩],
  [⟨7, false, 2128302638570647, 50⟩, ⟨9, false, 6169426897360259, 49⟩, ⟨11, false, 998783290453215, 46⟩],
  [⟨0, false, 2117526353435723, 51⟩, ⟨2, true, 6143880506478769, 49⟩, ⟨4, true, 2523856458011015, 48⟩],
  [⟨7, true, 6384907915711941, 50⟩, ⟨9, true, 911392609837311, 46⟩, ⟨11, true, 1571855670221453, 51⟩],
  [⟨0, true, 2117526353435723, 50⟩, ⟨4, false, 2523856458011015, 47⟩],
  [⟨7, false, 6384907915711941, 49⟩, ⟨9, false, 6730283888029373, 50⟩, ⟨11, true, 916915807629181, 48⟩],
  [⟨6, true, 4728779608739021, 54⟩, ⟨8, true, 6730283888029373, 51⟩, ⟨10, true, 2262065095567183, 48⟩,
    ⟨12, true, 623914014851597, 47⟩],
  [⟨1, false, 5370506873256631, 49⟩, ⟨3, false, 2523856458011015, 48⟩, ⟨5, false, 2128302638570647, 50⟩],
  [⟨6, false, 7093169413108531, 52⟩, ⟨8, false, 6730283888029373, 50⟩, ⟨10, false, 5138518241782243, 50⟩,
    ⟨12, true, 2117526353435723, 50⟩],
  [⟨1, false, 8907182131254901, 51⟩, ⟨3, true, 3925998934683801, 49⟩, ⟨5, true, 6384907915711941, 50⟩],
  [⟨6, true, 4728779608739021, 50⟩, ⟨8, true, 6730283888029373, 50⟩, ⟨10, false, 5361932078381471, 51⟩,
    ⟨12, false, 2117526353435723, 50⟩],
  [⟨1, true, 916915807629181, 48⟩, ⟨3, true, 6730283888029373, 50⟩, ⟨5, false, 6384907915711941, 49⟩],
  [⟨6, false, 4728779608739021, 49⟩, ⟨10, true, 5361932078381471, 50⟩]]

/-- The array `s2t7`: so3/_tensor_conversion_lut.npz. -/
def shippedS2t7 : List (List ShippedEntry) := [
  [⟨1, false, 1739486711683993, 56⟩, ⟨6, true, 1739486711683993, 56⟩, ⟨15, false, 1739486711683993, 56⟩,
    ⟨28, true, 1739486711683993, 56⟩],
  [⟨4, false, 1859589515419293, 57⟩, ⟨11, true, 1859589515419293, 57⟩, ⟨22, false, 1859589515419293, 57⟩],
  [⟨1, true, 7293910174150405, 59⟩, ⟨6, false, 1458782034830081, 59⟩, ⟨8, false, 1458782034830081, 57⟩,
    ⟨15, false, 4376346104490243, 59⟩, ⟨17, true, 1458782034830081, 57⟩, ⟨28, true, 5105737121905283, 58⟩,
    ⟨30, false, 1458782034830081, 57⟩],
  [⟨4, true, 1458782034830081, 57⟩, ⟨13, false, 1458782034830081, 57⟩, ⟨22, false, 1458782034830081, 57⟩,
    ⟨24, true, 1458782034830081, 57⟩],
  [⟨1, false, 7917107989815067, 60⟩, ⟨6, false, 1319517998302511, 59⟩, ⟨8, true, 1319517998302511, 57⟩,
    ⟨15, false, 7037429324280059, 63⟩, ⟨17, true, 7037429324280059, 61⟩, ⟨19, false, 7037429324280059, 59⟩,
    ⟨28, true, 4618312994058789, 58⟩, ⟨30, false, 4398393327675037, 58⟩, ⟨32, true, 7037429324280059, 59⟩],
  [⟨4, false, 3110133748324683, 59⟩, ⟨11, false, 7464320995979239, 61⟩, ⟨13, true, 4976213997319493, 59⟩,
    ⟨22, false, 3110133748324683, 59⟩, ⟨24, true, 4976213997319493, 59⟩, ⟨26, false, 4976213997319493, 58⟩],
  [⟨1, true, 5078827143470073, 61⟩, ⟨6, true, 761824071520511, 59⟩, ⟨8, false, 8126123429552117, 61⟩,
    ⟨15, true, 5078827143470073, 61⟩, ⟨17, false, 8126123429552117, 61⟩, ⟨19, true, 8126123429552117, 60⟩,
    ⟨28, true, 2221986875268157, 57⟩, ⟨30, false, 5078827143470073, 58⟩, ⟨32, true, 761824071520511, 55⟩,
    ⟨34, false, 8126123429552117, 58⟩],
  [⟨2, true, 1679664196688297, 57⟩, ⟨7, true, 2687462714701275, 60⟩, ⟨9, false, 8062388144103825, 59⟩,
    ⟨16, true, 2687462714701275, 60⟩, ⟨18, false, 2687462714701275, 59⟩, ⟨20, true, 2687462714701275, 57⟩,
    ⟨29, true, 1679664196688297, 57⟩, ⟨31, false, 8062388144103825, 59⟩, ⟨33, true, 2687462714701275, 57⟩,
    ⟨35, false, 2687462714701275, 56⟩],
  [⟨0, true, 2221986875268157, 57⟩, ⟨3, true, 5078827143470073, 61⟩, ⟨5, false, 5078827143470073, 58⟩,
    ⟨10, true, 761824071520511, 59⟩, ⟨12, false, 8126123429552117, 61⟩, ⟨14, true, 761824071520511, 55⟩,
    ⟨21, true, 5078827143470073, 61⟩, ⟨23, false, 8126123429552117, 61⟩, ⟨25, true, 8126123429552117, 60⟩,
    ⟨27, false, 8126123429552117, 58⟩],
  [⟨2, false, 4665200622487025, 58⟩, ⟨7, false, 4976213997319493, 62⟩, ⟨9, true, 4976213997319493, 58⟩,
    ⟨16, true, 4976213997319493, 62⟩, ⟨20, false, 4976213997319493, 58⟩, ⟨29, true, 4665200622487025, 58⟩,
    ⟨31, false, 4976213997319493, 58⟩, ⟨33, true, 4976213997319493, 58⟩],
  [⟨0, false, 4618312994058789, 58⟩, ⟨3, true, 7037429324280059, 63⟩, ⟨5, true, 4398393327675037, 58⟩,
    ⟨10, true, 1319517998302511, 59⟩, ⟨12, false, 7037429324280059, 61⟩, ⟨14, false, 7037429324280059, 59⟩,
    ⟨21, true, 7917107989815067, 60⟩, ⟨23, false, 1319517998302511, 57⟩, ⟨25, true, 7037429324280059, 59⟩],
  [⟨2, true, 4376346104490243, 58⟩, ⟨7, false, 1458782034830081, 58⟩, ⟨9, false, 1458782034830081, 57⟩,
    ⟨16, false, 1458782034830081, 58⟩, ⟨18, true, 1458782034830081, 57⟩, ⟨29, true, 4376346104490243, 58⟩,
    ⟨31, false, 1458782034830081, 57⟩],
  [⟨0, true, 5105737121905283, 58⟩, ⟨3, false, 4376346104490243, 59⟩, ⟨5, false, 1458782034830081, 57⟩,
    ⟨10, false, 1458782034830081, 59⟩, ⟨12, true, 1458782034830081, 57⟩, ⟨21, true, 7293910174150405, 59⟩,
    ⟨23, false, 1458782034830081, 57⟩],
  [⟨2, false, 1859589515419293, 57⟩, ⟨7, true, 1859589515419293, 57⟩, ⟨16, false, 1859589515419293, 57⟩,
    ⟨29, true, 1859589515419293, 57⟩],
  [⟨0, false, 1739486711683993, 56⟩, ⟨3, true, 1739486711683993, 56⟩, ⟨10, false, 1739486711683993, 56⟩,
    ⟨21, true, 1739486711683993, 56⟩]]

/-- The array `t2s7`: so3/_tensor_conversion_lut.npz. -/
def shippedT2s7 : List (List ShippedEntry) := [
  [⟨8, true, 5808759751579927, 53⟩, ⟨10, false, 8803433641360403, 50⟩, ⟨12, true, 278468192774691, 44⟩,
    ⟨14, false, 3875623957721709, 49⟩],
  [⟨0, false, 3017686688448271, 48⟩, ⟨2, true, 5845857096546705, 48⟩, ⟨4, false, 1205231986614817, 47⟩,
    ⟨6, true, 5808759751579927, 53⟩],
  [⟨7, true, 8782019273372467, 54⟩, ⟨9, false, 6521394655318947, 50⟩, ⟨11, true, 5119074862921979, 48⟩,
    ⟨13, false, 8998215888112135, 49⟩],
  [⟨8, true, 7260949689474909, 51⟩, ⟨10, false, 890823642280517, 47⟩, ⟨12, false, 687283199188599, 46⟩,
    ⟨14, true, 6273873312756339, 49⟩],
  [⟨1, false, 869145852829013, 45⟩, ⟨3, true, 6951830060758243, 48⟩, ⟨5, false, 6521394655318947, 50⟩],
  [⟨8, false, 8713139627369891, 51⟩, ⟨10, true, 3982505694901135, 48⟩, ⟨12, false, 6825433150562639, 50⟩,
    ⟨14, false, 1199124677517315, 48⟩],
  [⟨0, true, 7135123081138941, 49⟩, ⟨2, false, 2717533569205495, 49⟩, ⟨4, false, 2829675099008701, 48⟩,
    ⟨6, true, 7260949689474909, 51⟩],
  [⟨7, true, 39, 4⟩, ⟨9, false, 6521394655318947, 50⟩, ⟨11, false, 4423891856846155, 49⟩,
    ⟨13, true, 6407820405170763, 48⟩],
  [⟨0, false, 2199499408484799, 50⟩, ⟨2, false, 4487090311943957, 48⟩, ⟨4, true, 5240139072238335, 48⟩,
    ⟨6, false, 8713139627369891, 51⟩],
  [⟨7, false, 3293257227514675, 50⟩, ⟨9, true, 6521394655318947, 49⟩, ⟨11, false, 1453564467249451, 47⟩,
    ⟨13, false, 7634849844458781, 50⟩],
  [⟨8, true, 7260949689474909, 51⟩, ⟨10, true, 2829675099008701, 48⟩, ⟨12, false, 2717533569205495, 49⟩,
    ⟨14, false, 7135123081138941, 49⟩],
  [⟨1, true, 1976880763297363, 46⟩, ⟨5, false, 6521394655318947, 49⟩],
  [⟨8, false, 7260949689474909, 50⟩, ⟨10, false, 1048027814447667, 48⟩, ⟨12, true, 513487447669643, 45⟩,
    ⟨14, true, 430624884191301, 48⟩],
  [⟨1, false, 7634849844458781, 51⟩, ⟨3, false, 6951830060758243, 48⟩, ⟨5, true, 2445522995744605, 47⟩],
  [⟨8, true, 5808759751579927, 49⟩, ⟨10, false, 733619470113367, 46⟩, ⟨12, false, 600385323429121, 46⟩,
    ⟨14, true, 6147998346608113, 51⟩],
  [⟨0, false, 6273873312756339, 49⟩, ⟨2, false, 687283199188599, 46⟩, ⟨4, true, 890823642280517, 47⟩,
    ⟨6, true, 7260949689474909, 51⟩],
  [⟨7, true, 39, 4⟩, ⟨9, true, 6521394655318947, 50⟩, ⟨11, false, 4423891856846155, 49⟩,
    ⟨13, false, 6407820405170763, 48⟩],
  [⟨0, false, 430624884191301, 48⟩, ⟨2, true, 513487447669643, 45⟩, ⟨4, true, 1048027814447667, 48⟩,
    ⟨6, false, 7260949689474909, 50⟩],
  [⟨7, false, 39, 3⟩, ⟨11, true, 4423891856846155, 48⟩],
  [⟨0, true, 3921998945250003, 50⟩, ⟨2, true, 1516762922347253, 50⟩, ⟨4, false, 3144083443343001, 47⟩,
    ⟨6, true, 5808759751579927, 49⟩],
  [⟨7, true, 8782019273372467, 50⟩, ⟨9, false, 6521394655318947, 49⟩, ⟨11, false, 1516762922347253, 48⟩,
    ⟨13, true, 7634849844458781, 50⟩],
  [⟨8, true, 5808759751579927, 53⟩, ⟨10, true, 1205231986614817, 47⟩, ⟨12, true, 5845857096546705, 48⟩,
    ⟨14, true, 3017686688448271, 48⟩],
  [⟨1, false, 869145852829013, 45⟩, ⟨3, false, 6951830060758243, 48⟩, ⟨5, false, 6521394655318947, 50⟩],
  [⟨8, false, 8713139627369891, 51⟩, ⟨10, false, 5240139072238335, 48⟩, ⟨12, false, 4487090311943957, 48⟩,
    ⟨14, true, 2199499408484799, 50⟩],
  [⟨1, false, 7634849844458781, 51⟩, ⟨3, true, 6951830060758243, 48⟩, ⟨5, true, 2445522995744605, 47⟩],
  [⟨8, true, 5808759751579927, 49⟩, ⟨10, true, 3144083443343001, 47⟩, ⟨12, true, 1516762922347253, 50⟩,
    ⟨14, false, 3921998945250003, 50⟩],
  [⟨1, true, 7634849844458781, 50⟩, ⟨5, false, 2445522995744605, 46⟩],
  [⟨8, false, 5808759751579927, 48⟩, ⟨10, false, 6707378012465069, 49⟩, ⟨12, true, 8089402252518683, 50⟩,
    ⟨14, true, 6783998175567573, 53⟩],
  [⟨0, true, 3875623957721709, 49⟩, ⟨2, true, 278468192774691, 44⟩, ⟨4, true, 8803433641360403, 50⟩,
    ⟨6, true, 5808759751579927, 53⟩],
  [⟨7, true, 8782019273372467, 54⟩, ⟨9, true, 6521394655318947, 50⟩, ⟨11, true, 5119074862921979, 48⟩,
    ⟨13, true, 8998215888112135, 49⟩],
  [⟨0, true, 1199124677517315, 48⟩, ⟨2, false, 6825433150562639, 50⟩, ⟨4, false, 3982505694901135, 48⟩,
    ⟨6, false, 8713139627369891, 51⟩],
  [⟨7, false, 3293257227514675, 50⟩, ⟨9, false, 6521394655318947, 49⟩, ⟨11, false, 1453564467249451, 47⟩,
    ⟨13, true, 7634849844458781, 50⟩],
  [⟨0, false, 6147998346608113, 51⟩, ⟨2, false, 600385323429121, 46⟩, ⟨4, true, 733619470113367, 46⟩,
    ⟨6, true, 5808759751579927, 49⟩],
  [⟨7, true, 8782019273372467, 50⟩, ⟨9, true, 6521394655318947, 49⟩, ⟨11, false, 1516762922347253, 48⟩,
    ⟨13, false, 7634849844458781, 50⟩],
  [⟨0, false, 6783998175567573, 53⟩, ⟨2, true, 8089402252518683, 50⟩, ⟨4, true, 6707378012465069, 49⟩,
    ⟨6, false, 5808759751579927, 48⟩],
  [⟨7, false, 8782019273372467, 49⟩, ⟨11, true, 1516762922347253, 47⟩]]

/-- The array `s2t8`: so3/_tensor_conversion_lut.npz. -/
def shippedS2t8 : List (List ShippedEntry) := [
  [⟨1, false, 3593068301493977, 58⟩, ⟨6, true, 3593068301493977, 58⟩, ⟨15, false, 3593068301493977, 58⟩,
    ⟨28, true, 3593068301493977, 58⟩],
  [⟨4, false, 3593068301493977, 59⟩, ⟨11, true, 3593068301493977, 59⟩, ⟨22, false, 3593068301493977, 59⟩,
    ⟨37, true, 3593068301493977, 59⟩],
  [⟨1, true, 3936009118770049, 59⟩, ⟨6, false, 5248012158360065, 61⟩, ⟨8, false, 5248012158360065, 60⟩,
    ⟨15, false, 5248012158360065, 61⟩, ⟨17, true, 5248012158360065, 60⟩, ⟨28, true, 3936009118770049, 59⟩,
    ⟨30, false, 5248012158360065, 60⟩],
  [⟨4, true, 3036696962537799, 59⟩, ⟨11, false, 4858715140060479, 62⟩, ⟨13, false, 4858715140060479, 60⟩,
    ⟨22, false, 3644036355045359, 60⟩, ⟨24, true, 4858715140060479, 60⟩, ⟨37, true, 4251375747552919, 59⟩,
    ⟨39, false, 4858715140060479, 60⟩],
  [⟨1, false, 4716477922789569, 60⟩, ⟨6, false, 2695130241594039, 62⟩, ⟨8, true, 2695130241594039, 59⟩,
    ⟨15, true, 2695130241594039, 62⟩, ⟨19, false, 2695130241594039, 59⟩, ⟨28, true, 4716477922789569, 60⟩,
    ⟨30, false, 2695130241594039, 59⟩, ⟨32, true, 2695130241594039, 59⟩],
  [⟨4, false, 489290369135329, 57⟩, ⟨11, false, 5219097270776843, 62⟩, ⟨13, true, 5219097270776843, 60⟩,
    ⟨22, false, 3479398180517895, 63⟩, ⟨24, true, 3479398180517895, 61⟩, ⟨26, false, 3479398180517895, 59⟩,
    ⟨37, true, 2283355055964869, 58⟩, ⟨39, false, 4349247725647369, 59⟩, ⟨41, true, 3479398180517895, 59⟩],
  [⟨1, true, 4496985252382615, 61⟩, ⟨6, true, 3854558787756527, 62⟩, ⟨8, false, 3212132323130439, 60⟩,
    ⟨15, true, 3854558787756527, 62⟩, ⟨17, false, 3854558787756527, 61⟩, ⟨19, true, 5139411717008703, 60⟩,
    ⟨28, true, 4496985252382615, 61⟩, ⟨30, false, 3212132323130439, 60⟩, ⟨32, true, 5139411717008703, 60⟩,
    ⟨34, false, 5139411717008703, 59⟩],
  [⟨4, true, 2687462714701275, 61⟩, ⟨11, true, 1612477628820765, 61⟩, ⟨13, false, 537492542940255, 58⟩,
    ⟨22, true, 2687462714701275, 61⟩, ⟨24, false, 537492542940255, 58⟩, ⟨26, true, 537492542940255, 57⟩,
    ⟨37, true, 4703059750727231, 59⟩, ⟨39, false, 2687462714701275, 58⟩, ⟨41, true, 1612477628820765, 57⟩,
    ⟨43, false, 537492542940255, 55⟩],
  [⟨0, false, 6270746334302975, 60⟩, ⟨3, false, 895820904900425, 60⟩, ⟨5, true, 895820904900425, 57⟩,
    ⟨10, false, 537492542940255, 60⟩, ⟨12, true, 179164180980085, 57⟩, ⟨14, false, 537492542940255, 56⟩,
    ⟨21, false, 895820904900425, 60⟩, ⟨23, true, 179164180980085, 57⟩, ⟨25, false, 179164180980085, 56⟩,
    ⟨27, true, 179164180980085, 54⟩, ⟨36, false, 6270746334302975, 60⟩, ⟨38, true, 895820904900425, 57⟩,
    ⟨40, false, 537492542940255, 56⟩, ⟨42, true, 179164180980085, 54⟩, ⟨44, false, 179164180980085, 53⟩],
  [⟨2, true, 4703059750727231, 59⟩, ⟨7, true, 2687462714701275, 61⟩, ⟨9, false, 2687462714701275, 58⟩,
    ⟨16, true, 1612477628820765, 61⟩, ⟨18, false, 537492542940255, 58⟩, ⟨20, true, 1612477628820765, 57⟩,
    ⟨29, true, 2687462714701275, 61⟩, ⟨31, false, 537492542940255, 58⟩, ⟨33, true, 537492542940255, 57⟩,
    ⟨35, false, 537492542940255, 55⟩],
  [⟨0, true, 4496985252382615, 59⟩, ⟨3, true, 5139411717008703, 63⟩, ⟨5, false, 4818198484695659, 59⟩,
    ⟨12, false, 5139411717008703, 63⟩, ⟨14, true, 5139411717008703, 59⟩, ⟨21, false, 5139411717008703, 63⟩,
    ⟨23, true, 5139411717008703, 63⟩, ⟨27, false, 5139411717008703, 59⟩, ⟨36, false, 4496985252382615, 59⟩,
    ⟨38, true, 4818198484695659, 59⟩, ⟨40, false, 5139411717008703, 59⟩, ⟨42, true, 5139411717008703, 59⟩],
  [⟨2, false, 2283355055964869, 58⟩, ⟨7, true, 3479398180517895, 63⟩, ⟨9, true, 4349247725647369, 59⟩,
    ⟨16, true, 5219097270776843, 62⟩, ⟨18, false, 3479398180517895, 61⟩, ⟨20, false, 3479398180517895, 59⟩,
    ⟨29, true, 489290369135329, 57⟩, ⟨31, false, 5219097270776843, 60⟩, ⟨33, true, 3479398180517895, 59⟩],
  [⟨0, false, 4716477922789569, 59⟩, ⟨3, true, 2695130241594039, 61⟩, ⟨5, true, 4042695362391059, 59⟩,
    ⟨10, true, 2695130241594039, 61⟩, ⟨12, false, 2695130241594039, 60⟩, ⟨14, false, 2695130241594039, 59⟩,
    ⟨21, true, 2695130241594039, 61⟩, ⟨23, false, 2695130241594039, 60⟩, ⟨25, true, 2695130241594039, 59⟩,
    ⟨36, false, 4716477922789569, 59⟩, ⟨38, true, 4042695362391059, 59⟩, ⟨40, false, 2695130241594039, 59⟩],
  [⟨2, true, 4251375747552919, 59⟩, ⟨7, false, 3644036355045359, 60⟩, ⟨9, false, 4858715140060479, 60⟩,
    ⟨16, false, 4858715140060479, 62⟩, ⟨18, true, 4858715140060479, 60⟩, ⟨29, true, 3036696962537799, 59⟩,
    ⟨31, false, 4858715140060479, 60⟩],
  [⟨0, true, 5248012158360065, 59⟩, ⟨3, false, 5248012158360065, 60⟩, ⟨5, false, 5248012158360065, 60⟩,
    ⟨12, true, 5248012158360065, 60⟩, ⟨21, true, 5248012158360065, 60⟩, ⟨23, false, 5248012158360065, 60⟩,
    ⟨36, false, 5248012158360065, 59⟩, ⟨38, true, 5248012158360065, 60⟩],
  [⟨2, false, 3593068301493977, 59⟩, ⟨7, true, 3593068301493977, 59⟩, ⟨16, false, 3593068301493977, 59⟩,
    ⟨29, true, 3593068301493977, 59⟩],
  [⟨0, false, 3593068301493977, 58⟩, ⟨3, true, 3593068301493977, 58⟩, ⟨10, false, 3593068301493977, 58⟩,
    ⟨21, true, 3593068301493977, 58⟩, ⟨36, false, 3593068301493977, 58⟩]]

/-- The array `t2s8`: so3/_tensor_conversion_lut.npz. -/
def shippedT2s8 : List (List ShippedEntry) := [
  [⟨8, true, 1134894407978115, 53⟩, ⟨10, true, 6646645498446405, 51⟩, ⟨12, false, 5262245427566099, 48⟩,
    ⟨14, true, 8238082536484995, 48⟩, ⟨16, false, 6082561479682729, 49⟩],
  [⟨0, false, 4798140952660323, 48⟩, ⟨2, true, 44741409959831, 40⟩, ⟨4, false, 1505115358852239, 46⟩,
    ⟨6, true, 4592227798926607, 51⟩],
  [⟨9, true, 39, 5⟩, ⟨11, false, 4451455312657097, 48⟩, ⟨13, true, 5350871712294045, 47⟩,
    ⟨15, false, 469069595138083, 44⟩],
  [⟨8, false, 390119952742477, 48⟩, ⟨10, true, 1246246030958701, 47⟩, ⟨12, false, 1159957325431237, 47⟩,
    ⟨14, false, 3101994041515955, 47⟩, ⟨16, true, 5229729593194287, 48⟩],
  [⟨1, false, 5843725144215981, 47⟩, ⟨3, true, 7020647282087931, 47⟩, ⟨5, false, 2437701718836029, 47⟩,
    ⟨7, true, 39, 5⟩],
  [⟨8, true, 2837236019945287, 51⟩, ⟨10, false, 6646645498446405, 49⟩, ⟨12, true, 7582160078428573, 48⟩,
    ⟨14, false, 8136377813812341, 50⟩, ⟨16, false, 4376897706705845, 49⟩],
  [⟨0, true, 3245801232681983, 47⟩, ⟨2, false, 2283733318195055, 47⟩, ⟨4, false, 1505115358852239, 46⟩,
    ⟨6, true, 5740284748658259, 49⟩],
  [⟨9, true, 195, 5⟩, ⟨11, false, 7207118125254347, 49⟩, ⟨13, false, 1650800847409865, 46⟩,
    ⟨15, true, 3037325857065057, 46⟩],
  [⟨0, false, 6773846050814573, 50⟩, ⟨2, false, 6886334313326627, 48⟩, ⟨4, true, 1505115358852239, 45⟩,
    ⟨6, false, 6888341698389911, 49⟩],
  [⟨9, false, 117, 4⟩, ⟨11, true, 4027507187642135, 47⟩, ⟨13, false, 2049270017474315, 47⟩,
    ⟨15, false, 4644189906050901, 48⟩],
  [⟨8, false, 6809366447868689, 51⟩, ⟨12, true, 2942330776703625, 47⟩, ⟨16, false, 6037466169977275, 48⟩],
  [⟨1, true, 3454276608298909, 46⟩, ⟨3, false, 3263652250051687, 48⟩, ⟨5, false, 2861649843850991, 47⟩,
    ⟨7, true, 195, 5⟩],
  [⟨8, true, 4965163034904253, 50⟩, ⟨10, false, 1246246030958701, 47⟩, ⟨12, false, 3564746902544777, 48⟩,
    ⟨14, true, 3101994041515955, 47⟩, ⟨16, true, 3230946307131951, 50⟩],
  [⟨1, false, 8518624579054691, 50⟩, ⟨3, false, 673602644632761, 44⟩, ⟨5, true, 1324837890671755, 45⟩,
    ⟨7, false, 117, 4⟩],
  [⟨8, false, 199493157652403, 45⟩, ⟨10, true, 1453953702785151, 46⟩, ⟨12, false, 1004353293970949, 46⟩,
    ⟨14, false, 4169893629578825, 48⟩, ⟨16, true, 5522849106279739, 50⟩],
  [⟨0, false, 3245801232681983, 47⟩, ⟨2, false, 2283733318195055, 47⟩, ⟨4, true, 1505115358852239, 46⟩,
    ⟨6, true, 5740284748658259, 49⟩],
  [⟨9, true, 195, 5⟩, ⟨11, true, 2861649843850991, 47⟩, ⟨13, false, 3263652250051687, 48⟩,
    ⟨15, false, 3454276608298909, 46⟩],
  [⟨2, true, 2283733318195055, 46⟩, ⟨6, false, 5740284748658259, 48⟩],
  [⟨9, false, 195, 4⟩, ⟨11, false, 264967578134351, 45⟩, ⟨13, true, 4933427819845573, 47⟩,
    ⟨15, true, 6671212019741625, 50⟩],
  [⟨0, true, 6773846050814573, 50⟩, ⟨2, false, 4497197918907185, 49⟩, ⟨4, false, 1505115358852239, 45⟩,
    ⟨6, true, 4592227798926607, 47⟩],
  [⟨9, true, 39, 1⟩, ⟨11, false, 2967636875104731, 47⟩, ⟨13, false, 1442078901185629, 46⟩,
    ⟨15, true, 5952773802230989, 49⟩],
  [⟨8, false, 390119952742477, 48⟩, ⟨10, false, 1246246030958701, 47⟩, ⟨12, false, 1159957325431237, 47⟩,
    ⟨14, true, 3101994041515955, 47⟩, ⟨16, true, 5229729593194287, 48⟩],
  [⟨1, false, 3037325857065057, 46⟩, ⟨3, false, 1650800847409865, 46⟩, ⟨5, true, 7207118125254347, 49⟩,
    ⟨7, true, 195, 5⟩],
  [⟨8, true, 4965163034904253, 50⟩, ⟨10, true, 1246246030958701, 47⟩, ⟨12, false, 3564746902544777, 48⟩,
    ⟨14, false, 3101994041515955, 47⟩, ⟨16, true, 3230946307131951, 50⟩],
  [⟨1, false, 6671212019741625, 50⟩, ⟨3, true, 4933427819845573, 47⟩, ⟨5, true, 264967578134351, 45⟩,
    ⟨7, false, 195, 4⟩],
  [⟨8, false, 4965163034904253, 49⟩, ⟨12, true, 3564746902544777, 47⟩, ⟨16, false, 3230946307131951, 49⟩],
  [⟨1, true, 3797459149699079, 48⟩, ⟨3, true, 7286293395464231, 51⟩, ⟨5, false, 794902734403053, 44⟩,
    ⟨7, true, 39, 1⟩],
  [⟨8, true, 8157053557342701, 49⟩, ⟨10, false, 1453953702785151, 46⟩, ⟨12, false, 6224161258411515, 49⟩,
    ⟨14, true, 4169893629578825, 48⟩, ⟨16, true, 7512348063873305, 53⟩],
  [⟨0, true, 4798140952660323, 48⟩, ⟨2, true, 44741409959831, 40⟩, ⟨4, true, 1505115358852239, 46⟩,
    ⟨6, true, 4592227798926607, 51⟩],
  [⟨9, true, 39, 5⟩, ⟨11, true, 2437701718836029, 47⟩, ⟨13, true, 7020647282087931, 47⟩,
    ⟨15, true, 5843725144215981, 47⟩],
  [⟨0, true, 6773846050814573, 50⟩, ⟨2, false, 6886334313326627, 48⟩, ⟨4, false, 1505115358852239, 45⟩,
    ⟨6, false, 6888341698389911, 49⟩],
  [⟨9, false, 117, 4⟩, ⟨11, false, 1324837890671755, 45⟩, ⟨13, false, 673602644632761, 44⟩,
    ⟨15, true, 8518624579054691, 50⟩],
  [⟨0, false, 6773846050814573, 50⟩, ⟨2, false, 4497197918907185, 49⟩, ⟨4, true, 1505115358852239, 45⟩,
    ⟨6, true, 4592227798926607, 47⟩],
  [⟨9, true, 39, 1⟩, ⟨11, true, 794902734403053, 44⟩, ⟨13, true, 7286293395464231, 51⟩,
    ⟨15, false, 3797459149699079, 48⟩],
  [⟨2, true, 4497197918907185, 48⟩, ⟨6, false, 4592227798926607, 46⟩],
  [⟨9, false, 39, 0⟩, ⟨11, false, 3391585000119693, 47⟩, ⟨13, true, 303595558144343, 44⟩,
    ⟨15, true, 6568577988668677, 51⟩],
  [⟨8, true, 1134894407978115, 53⟩, ⟨10, false, 6646645498446405, 51⟩, ⟨12, false, 5262245427566099, 48⟩,
    ⟨14, false, 8238082536484995, 48⟩, ⟨16, false, 6082561479682729, 49⟩],
  [⟨1, true, 469069595138083, 44⟩, ⟨3, true, 5350871712294045, 47⟩, ⟨5, true, 4451455312657097, 48⟩,
    ⟨7, true, 39, 5⟩],
  [⟨8, true, 2837236019945287, 51⟩, ⟨10, true, 6646645498446405, 49⟩, ⟨12, true, 7582160078428573, 48⟩,
    ⟨14, true, 8136377813812341, 50⟩, ⟨16, false, 4376897706705845, 49⟩],
  [⟨1, true, 4644189906050901, 48⟩, ⟨3, false, 2049270017474315, 47⟩, ⟨5, false, 4027507187642135, 47⟩,
    ⟨7, false, 117, 4⟩],
  [⟨8, false, 199493157652403, 45⟩, ⟨10, false, 1453953702785151, 46⟩, ⟨12, false, 1004353293970949, 46⟩,
    ⟨14, true, 4169893629578825, 48⟩, ⟨16, true, 5522849106279739, 50⟩],
  [⟨1, false, 5952773802230989, 49⟩, ⟨3, false, 1442078901185629, 46⟩, ⟨5, true, 2967636875104731, 47⟩,
    ⟨7, true, 39, 1⟩],
  [⟨8, true, 8157053557342701, 49⟩, ⟨10, true, 1453953702785151, 46⟩, ⟨12, false, 6224161258411515, 49⟩,
    ⟨14, false, 4169893629578825, 48⟩, ⟨16, true, 7512348063873305, 53⟩],
  [⟨1, false, 6568577988668677, 51⟩, ⟨3, true, 303595558144343, 44⟩, ⟨5, true, 3391585000119693, 47⟩,
    ⟨7, false, 39, 0⟩],
  [⟨8, false, 8157053557342701, 48⟩, ⟨12, true, 6224161258411515, 48⟩, ⟨16, false, 7512348063873305, 52⟩]]

/-- The array `s2t9`: so3/_tensor_conversion_lut.npz. -/
def shippedS2t9 : List (List ShippedEntry) := [
  [⟨1, false, 3697236780159687, 59⟩, ⟨6, true, 3697236780159687, 59⟩, ⟨15, false, 3697236780159687, 59⟩,
    ⟨28, true, 3697236780159687, 59⟩, ⟨45, false, 3697236780159687, 59⟩],
  [⟨4, false, 871447066301077, 58⟩, ⟨11, true, 871447066301077, 58⟩, ⟨22, false, 871447066301077, 58⟩,
    ⟨37, true, 871447066301077, 58⟩],
  [⟨1, true, 8369308578244589, 61⟩, ⟨6, false, 7173693067066791, 62⟩, ⟨8, false, 2391231022355597, 60⟩,
    ⟨15, false, 2391231022355597, 62⟩, ⟨17, true, 2391231022355597, 60⟩, ⟨28, true, 186814923621531, 56⟩,
    ⟨30, false, 2391231022355597, 60⟩, ⟨45, false, 5380269800300093, 60⟩, ⟨47, true, 2391231022355597, 60⟩],
  [⟨4, true, 3106300217516073, 60⟩, ⟨11, false, 1035433405838691, 60⟩, ⟨13, false, 1035433405838691, 59⟩,
    ⟨22, false, 1035433405838691, 60⟩, ⟨24, true, 1035433405838691, 59⟩, ⟨37, true, 3106300217516073, 60⟩,
    ⟨39, false, 1035433405838691, 59⟩],
  [⟨1, false, 2673477557946717, 60⟩, ⟨8, true, 2673477557946717, 60⟩, ⟨15, true, 4277564092714747, 63⟩,
    ⟨17, false, 4277564092714747, 63⟩, ⟨19, false, 4277564092714747, 61⟩, ⟨28, true, 4277564092714747, 62⟩,
    ⟨30, false, 6416346139072121, 62⟩, ⟨32, true, 4277564092714747, 61⟩, ⟨45, false, 4812259604304091, 60⟩,
    ⟨47, true, 935717145281351, 58⟩, ⟨49, false, 4277564092714747, 61⟩],
  [⟨4, false, 8947167218279823, 62⟩, ⟨11, false, 5112666981874185, 64⟩, ⟨13, true, 5112666981874185, 61⟩,
    ⟨22, true, 5112666981874185, 64⟩, ⟨26, false, 5112666981874185, 61⟩, ⟨37, true, 8947167218279823, 62⟩,
    ⟨39, false, 5112666981874185, 61⟩, ⟨41, true, 5112666981874185, 61⟩],
  [⟨1, true, 6078403177145779, 62⟩, ⟨6, true, 1736686622041651, 62⟩, ⟨8, false, 3907544899593715, 61⟩,
    ⟨15, true, 1736686622041651, 63⟩, ⟨17, false, 5210059866124953, 63⟩, ⟨19, true, 5210059866124953, 61⟩,
    ⟨30, false, 1736686622041651, 63⟩, ⟨32, true, 1736686622041651, 61⟩, ⟨34, false, 1736686622041651, 59⟩,
    ⟨45, false, 2279401191429667, 59⟩, ⟨47, true, 2279401191429667, 59⟩, ⟨49, false, 8683433110208255, 61⟩,
    ⟨51, true, 1736686622041651, 59⟩],
  [⟨4, true, 4642457110621767, 62⟩, ⟨11, true, 7958497903923029, 64⟩, ⟨13, false, 1658020396650631, 60⟩,
    ⟨22, true, 7958497903923029, 64⟩, ⟨24, false, 7958497903923029, 63⟩, ⟨26, true, 5305665269282019, 61⟩,
    ⟨37, true, 4642457110621767, 62⟩, ⟨39, false, 1658020396650631, 60⟩, ⟨41, true, 5305665269282019, 61⟩,
    ⟨43, false, 5305665269282019, 60⟩],
  [⟨1, false, 7918201453078065, 64⟩, ⟨6, false, 848378727115507, 62⟩, ⟨8, true, 2827929090385023, 62⟩,
    ⟨15, false, 848378727115507, 62⟩, ⟨17, true, 848378727115507, 61⟩, ⟨19, false, 4524686544616037, 62⟩,
    ⟨28, false, 7918201453078065, 64⟩, ⟨30, true, 2827929090385023, 62⟩, ⟨32, false, 4524686544616037, 62⟩,
    ⟨34, true, 4524686544616037, 61⟩, ⟨45, false, 8907976634712823, 61⟩, ⟨47, true, 4948875908173791, 60⟩,
    ⟨49, false, 2827929090385023, 59⟩, ⟨51, true, 848378727115507, 57⟩, ⟨53, false, 4524686544616037, 59⟩],
  [⟨2, false, 3319806882866281, 60⟩, ⟨7, false, 7588130017980071, 64⟩, ⟨9, true, 7588130017980071, 61⟩,
    ⟨16, false, 2276439005394021, 63⟩, ⟨18, true, 758813001798007, 60⟩, ⟨20, false, 2276439005394021, 59⟩,
    ⟨29, false, 7588130017980071, 64⟩, ⟨31, true, 758813001798007, 60⟩, ⟨33, false, 758813001798007, 59⟩,
    ⟨35, true, 758813001798007, 57⟩, ⟨46, false, 3319806882866281, 60⟩, ⟨48, true, 7588130017980071, 61⟩,
    ⟨50, false, 2276439005394021, 59⟩, ⟨52, true, 758813001798007, 57⟩, ⟨54, false, 758813001798007, 56⟩],
  [⟨0, false, 8907976634712823, 61⟩, ⟨3, false, 7918201453078065, 64⟩, ⟨5, true, 4948875908173791, 60⟩,
    ⟨10, false, 848378727115507, 62⟩, ⟨12, true, 2827929090385023, 62⟩, ⟨14, false, 2827929090385023, 59⟩,
    ⟨21, false, 848378727115507, 62⟩, ⟨23, true, 848378727115507, 61⟩, ⟨25, false, 4524686544616037, 62⟩,
    ⟨27, true, 848378727115507, 57⟩, ⟨36, false, 7918201453078065, 64⟩, ⟨38, true, 2827929090385023, 62⟩,
    ⟨40, false, 4524686544616037, 62⟩, ⟨42, true, 4524686544616037, 61⟩, ⟨44, false, 4524686544616037, 59⟩],
  [⟨2, true, 4642457110621767, 60⟩, ⟨7, true, 5305665269282019, 64⟩, ⟨9, false, 4974061189951893, 60⟩,
    ⟨18, false, 5305665269282019, 64⟩, ⟨20, true, 5305665269282019, 60⟩, ⟨29, false, 5305665269282019, 64⟩,
    ⟨31, true, 5305665269282019, 64⟩, ⟨35, false, 5305665269282019, 60⟩, ⟨46, false, 4642457110621767, 60⟩,
    ⟨48, true, 4974061189951893, 60⟩, ⟨50, false, 5305665269282019, 60⟩, ⟨52, true, 5305665269282019, 60⟩],
  [⟨0, true, 2279401191429667, 59⟩, ⟨5, false, 2279401191429667, 59⟩, ⟨10, false, 1736686622041651, 63⟩,
    ⟨12, true, 1736686622041651, 63⟩, ⟨14, true, 8683433110208255, 61⟩, ⟨21, false, 1736686622041651, 62⟩,
    ⟨23, true, 5210059866124953, 63⟩, ⟨25, false, 1736686622041651, 61⟩, ⟨27, false, 1736686622041651, 59⟩,
    ⟨36, false, 6078403177145779, 62⟩, ⟨38, true, 3907544899593715, 61⟩, ⟨40, false, 5210059866124953, 61⟩,
    ⟨42, true, 1736686622041651, 59⟩],
  [⟨2, false, 8947167218279823, 61⟩, ⟨7, true, 5112666981874185, 63⟩, ⟨9, true, 7669000472811277, 61⟩,
    ⟨16, true, 5112666981874185, 63⟩, ⟨18, false, 5112666981874185, 62⟩, ⟨20, false, 5112666981874185, 61⟩,
    ⟨29, true, 5112666981874185, 63⟩, ⟨31, false, 5112666981874185, 62⟩, ⟨33, true, 5112666981874185, 61⟩,
    ⟨46, false, 8947167218279823, 61⟩, ⟨48, true, 7669000472811277, 61⟩, ⟨50, false, 5112666981874185, 61⟩],
  [⟨0, false, 4812259604304091, 60⟩, ⟨3, true, 4277564092714747, 62⟩, ⟨5, true, 935717145281351, 58⟩,
    ⟨10, true, 4277564092714747, 63⟩, ⟨12, false, 6416346139072121, 62⟩, ⟨14, false, 4277564092714747, 61⟩,
    ⟨23, false, 4277564092714747, 63⟩, ⟨25, true, 4277564092714747, 61⟩, ⟨36, false, 2673477557946717, 60⟩,
    ⟨38, true, 2673477557946717, 60⟩, ⟨40, false, 4277564092714747, 61⟩],
  [⟨2, true, 1035433405838691, 58⟩, ⟨7, false, 1035433405838691, 59⟩, ⟨9, false, 1035433405838691, 59⟩,
    ⟨18, true, 1035433405838691, 59⟩, ⟨29, true, 1035433405838691, 59⟩, ⟨31, false, 1035433405838691, 59⟩,
    ⟨46, false, 1035433405838691, 58⟩, ⟨48, true, 1035433405838691, 59⟩],
  [⟨0, true, 5380269800300093, 60⟩, ⟨3, false, 186814923621531, 56⟩, ⟨5, false, 2391231022355597, 60⟩,
    ⟨10, true, 2391231022355597, 62⟩, ⟨12, true, 2391231022355597, 60⟩, ⟨21, true, 7173693067066791, 62⟩,
    ⟨23, false, 2391231022355597, 60⟩, ⟨36, false, 8369308578244589, 61⟩, ⟨38, true, 2391231022355597, 60⟩],
  [⟨2, false, 871447066301077, 58⟩, ⟨7, true, 871447066301077, 58⟩, ⟨16, false, 871447066301077, 58⟩,
    ⟨29, true, 871447066301077, 58⟩, ⟨46, false, 871447066301077, 58⟩],
  [⟨0, false, 3697236780159687, 59⟩, ⟨3, true, 3697236780159687, 59⟩, ⟨10, false, 3697236780159687, 59⟩,
    ⟨21, true, 3697236780159687, 59⟩, ⟨36, false, 3697236780159687, 59⟩]]

/-- The array `t2s9`: so3/_tensor_conversion_lut.npz. -/
def shippedT2s9 : List (List ShippedEntry) := [
  [⟨10, true, 44938455979061, 47⟩, ⟨12, true, 5034468656875643, 49⟩, ⟨14, false, 1530020908059687, 45⟩,
    ⟨16, true, 958941087054765, 44⟩, ⟨18, false, 2335387279664159, 47⟩],
  [⟨0, false, 1907558766422399, 46⟩, ⟨2, true, 2657930924354773, 45⟩, ⟨4, false, 222447214545571, 42⟩,
    ⟨6, true, 2400153661998853, 48⟩, ⟨8, true, 44938455979061, 47⟩],
  [⟨9, true, 8574757749167979, 55⟩, ⟨11, true, 804796524558673, 47⟩, ⟨13, false, 5547960327087213, 47⟩,
    ⟨15, true, 5219258557486397, 46⟩, ⟨17, false, 6269760863761285, 47⟩],
  [⟨10, false, 494323015769671, 47⟩, ⟨12, true, 6732138320240685, 48⟩, ⟨14, false, 6227036550083697, 49⟩,
    ⟨16, false, 894502371817971, 44⟩, ⟨18, true, 4503853768573185, 47⟩],
  [⟨1, false, 618226311075633, 43⟩, ⟨3, true, 1814146324639211, 44⟩, ⟨5, false, 1586835964521719, 45⟩,
    ⟨7, true, 4448329881197029, 50⟩],
  [⟨10, true, 224692279895305, 46⟩, ⟨12, false, 4624686324339253, 47⟩, ⟨14, true, 959605346219959, 44⟩,
    ⟨16, false, 4124077775154819, 50⟩, ⟨18, false, 8673865955636103, 49⟩],
  [⟨0, true, 1387623060083775, 45⟩, ⟨2, false, 723772992273063, 44⟩, ⟨4, false, 568930104647437, 44⟩,
    ⟨6, true, 4010012825534669, 47⟩, ⟨8, false, 494323015769671, 47⟩],
  [⟨9, false, 2947572976276493, 50⟩, ⟨11, true, 2414389573676019, 47⟩, ⟨13, false, 4891749965818833, 48⟩,
    ⟨15, false, 3930552740823089, 46⟩, ⟨17, true, 5390681876539631, 46⟩],
  [⟨0, false, 6941498829961209, 49⟩, ⟨2, false, 1210384939808647, 45⟩, ⟨4, true, 1458718962829721, 44⟩,
    ⟨6, false, 325630603533381, 43⟩, ⟨8, true, 224692279895305, 46⟩],
  [⟨9, true, 5359223593229987, 51⟩, ⟨11, false, 804796524558673, 45⟩, ⟨13, true, 3996917654998315, 46⟩,
    ⟨15, false, 5154823266653231, 48⟩, ⟨17, false, 4511602889317977, 47⟩],
  [⟨10, false, 8628183547979711, 50⟩, ⟨12, false, 5619871989070485, 50⟩, ⟨14, true, 891274315374575, 44⟩,
    ⟨16, true, 3188719929243417, 48⟩, ⟨18, false, 717308262974761, 44⟩],
  [⟨1, true, 6691390661053911, 46⟩, ⟨3, false, 5787460667560673, 47⟩, ⟨5, false, 1586835964521719, 45⟩,
    ⟨7, true, 2780206175748143, 47⟩],
  [⟨10, true, 1572845959267135, 47⟩, ⟨12, false, 665896290371633, 45⟩, ⟨14, false, 5573435385475675, 47⟩,
    ⟨16, true, 1390414752480515, 45⟩, ⟨18, true, 1234612335224903, 47⟩],
  [⟨1, false, 6982320689795385, 48⟩, ⟨3, false, 8725709929553015, 47⟩, ⟨5, true, 1586835964521719, 44⟩,
    ⟨7, false, 834061852724443, 45⟩],
  [⟨10, false, 2022230519057745, 47⟩, ⟨12, true, 7288271485825785, 47⟩, ⟨14, false, 2103407384283997, 47⟩,
    ⟨16, false, 5046149288027707, 47⟩, ⟨18, true, 3735416614736491, 49⟩],
  [⟨0, false, 717308262974761, 44⟩, ⟨2, false, 3188719929243417, 48⟩, ⟨4, true, 891274315374575, 44⟩,
    ⟨6, true, 5619871989070485, 50⟩, ⟨8, false, 8628183547979711, 50⟩],
  [⟨9, false, 401941769492249, 46⟩, ⟨13, true, 6204170688355593, 47⟩, ⟨17, false, 6223277682477403, 46⟩],
  [⟨0, true, 3007581815407803, 51⟩, ⟨2, true, 7384543902806213, 47⟩, ⟨4, false, 5157507371634207, 48⟩,
    ⟨6, false, 147265525755265, 42⟩, ⟨8, true, 1572845959267135, 47⟩],
  [⟨9, true, 4689320644076239, 49⟩, ⟨11, false, 2414389573676019, 47⟩, ⟨13, false, 3758295705446177, 47⟩,
    ⟨15, true, 3930552740823089, 46⟩, ⟨17, true, 6660766447502177, 49⟩],
  [⟨0, true, 3094801688054629, 48⟩, ⟨2, false, 2543004143571625, 47⟩, ⟨4, false, 1136374752102583, 44⟩,
    ⟨6, true, 620161655043911, 43⟩, ⟨8, false, 2022230519057745, 47⟩],
  [⟨9, false, 6029126542383735, 49⟩, ⟨11, true, 5633575671910711, 47⟩, ⟨13, false, 4235539604550453, 47⟩,
    ⟨15, false, 2641846924159781, 46⟩, ⟨17, true, 5692822554884865, 48⟩],
  [⟨10, false, 494323015769671, 47⟩, ⟨12, false, 4010012825534669, 47⟩, ⟨14, false, 568930104647437, 44⟩,
    ⟨16, true, 723772992273063, 44⟩, ⟨18, true, 1387623060083775, 45⟩],
  [⟨1, false, 6691390661053911, 46⟩, ⟨3, false, 5787460667560673, 47⟩, ⟨5, true, 1586835964521719, 45⟩,
    ⟨7, true, 2780206175748143, 47⟩],
  [⟨10, true, 1572845959267135, 47⟩, ⟨12, true, 147265525755265, 42⟩, ⟨14, false, 5157507371634207, 48⟩,
    ⟨16, false, 7384543902806213, 47⟩, ⟨18, true, 3007581815407803, 51⟩],
  [⟨3, true, 5787460667560673, 46⟩, ⟨7, false, 2780206175748143, 46⟩],
  [⟨10, false, 1572845959267135, 46⟩, ⟨12, false, 8195646650727791, 49⟩, ⟨14, true, 8152189071292779, 47⟩,
    ⟨16, true, 7291539571536613, 49⟩, ⟨18, false, 5690344794751563, 49⟩],
  [⟨1, true, 6982320689795385, 48⟩, ⟨3, false, 5698422811136663, 48⟩, ⟨5, false, 1586835964521719, 44⟩,
    ⟨7, true, 4448329881197029, 46⟩],
  [⟨10, true, 5167922437592015, 47⟩, ⟨12, false, 2619679911571919, 46⟩, ⟨14, false, 3024390843504391, 46⟩,
    ⟨16, true, 1611632197571777, 46⟩, ⟨18, true, 7819712720060287, 51⟩],
  [⟨0, true, 4503853768573185, 47⟩, ⟨2, true, 894502371817971, 44⟩, ⟨4, false, 6227036550083697, 49⟩,
    ⟨6, false, 6732138320240685, 48⟩, ⟨8, false, 494323015769671, 47⟩],
  [⟨9, false, 2947572976276493, 50⟩, ⟨11, false, 2414389573676019, 47⟩, ⟨13, false, 4891749965818833, 48⟩,
    ⟨15, true, 3930552740823089, 46⟩, ⟨17, true, 5390681876539631, 46⟩],
  [⟨0, true, 1234612335224903, 47⟩, ⟨2, false, 1390414752480515, 45⟩, ⟨4, false, 5573435385475675, 47⟩,
    ⟨6, true, 665896290371633, 45⟩, ⟨8, true, 1572845959267135, 47⟩],
  [⟨9, true, 4689320644076239, 49⟩, ⟨11, true, 2414389573676019, 47⟩, ⟨13, false, 3758295705446177, 47⟩,
    ⟨15, false, 3930552740823089, 46⟩, ⟨17, true, 6660766447502177, 49⟩],
  [⟨0, false, 5690344794751563, 49⟩, ⟨2, false, 7291539571536613, 49⟩, ⟨4, true, 8152189071292779, 47⟩,
    ⟨6, true, 8195646650727791, 49⟩, ⟨8, false, 1572845959267135, 46⟩],
  [⟨9, false, 4689320644076239, 48⟩, ⟨13, true, 3758295705446177, 46⟩, ⟨17, false, 6660766447502177, 48⟩],
  [⟨0, false, 1997034325430781, 51⟩, ⟨2, true, 2182944518227889, 46⟩, ⟨4, true, 7510471564223085, 50⟩,
    ⟨6, false, 5985749071692261, 46⟩, ⟨8, true, 5167922437592015, 47⟩],
  [⟨9, true, 3851941957634053, 47⟩, ⟨11, false, 5633575671910711, 47⟩, ⟨13, false, 6562103612683801, 48⟩,
    ⟨15, true, 2641846924159781, 46⟩, ⟨17, true, 7743551140938491, 51⟩],
  [⟨10, true, 44938455979061, 47⟩, ⟨12, false, 2400153661998853, 48⟩, ⟨14, false, 222447214545571, 42⟩,
    ⟨16, false, 2657930924354773, 45⟩, ⟨18, false, 1907558766422399, 46⟩],
  [⟨1, true, 618226311075633, 43⟩, ⟨3, true, 1814146324639211, 44⟩, ⟨5, true, 1586835964521719, 45⟩,
    ⟨7, true, 4448329881197029, 50⟩],
  [⟨10, true, 224692279895305, 46⟩, ⟨12, true, 325630603533381, 43⟩, ⟨14, true, 1458718962829721, 44⟩,
    ⟨16, true, 1210384939808647, 45⟩, ⟨18, false, 6941498829961209, 49⟩],
  [⟨1, true, 6982320689795385, 48⟩, ⟨3, false, 8725709929553015, 47⟩, ⟨5, false, 1586835964521719, 44⟩,
    ⟨7, false, 834061852724443, 45⟩],
  [⟨10, false, 2022230519057745, 47⟩, ⟨12, false, 620161655043911, 43⟩, ⟨14, false, 1136374752102583, 44⟩,
    ⟨16, true, 2543004143571625, 47⟩, ⟨18, true, 3094801688054629, 48⟩],
  [⟨1, false, 6982320689795385, 48⟩, ⟨3, false, 5698422811136663, 48⟩, ⟨5, true, 1586835964521719, 44⟩,
    ⟨7, true, 4448329881197029, 46⟩],
  [⟨10, true, 5167922437592015, 47⟩, ⟨12, true, 5985749071692261, 46⟩, ⟨14, true, 7510471564223085, 50⟩,
    ⟨16, false, 2182944518227889, 46⟩, ⟨18, false, 1997034325430781, 51⟩],
  [⟨3, true, 5698422811136663, 47⟩, ⟨7, false, 4448329881197029, 45⟩],
  [⟨10, false, 5167922437592015, 46⟩, ⟨12, false, 6732138320240685, 47⟩, ⟨14, true, 79843324085639, 41⟩,
    ⟨16, true, 2285249282624449, 48⟩, ⟨18, false, 2911339197314753, 50⟩],
  [⟨0, false, 2335387279664159, 47⟩, ⟨2, false, 958941087054765, 44⟩, ⟨4, false, 1530020908059687, 45⟩,
    ⟨6, false, 5034468656875643, 49⟩, ⟨8, true, 44938455979061, 47⟩],
  [⟨9, true, 8574757749167979, 55⟩, ⟨11, false, 804796524558673, 47⟩, ⟨13, false, 5547960327087213, 47⟩,
    ⟨15, false, 5219258557486397, 46⟩, ⟨17, false, 6269760863761285, 47⟩],
  [⟨0, false, 8673865955636103, 49⟩, ⟨2, true, 4124077775154819, 50⟩, ⟨4, true, 959605346219959, 44⟩,
    ⟨6, true, 4624686324339253, 47⟩, ⟨8, true, 224692279895305, 46⟩],
  [⟨9, true, 5359223593229987, 51⟩, ⟨11, true, 804796524558673, 45⟩, ⟨13, true, 3996917654998315, 46⟩,
    ⟨15, true, 5154823266653231, 48⟩, ⟨17, false, 4511602889317977, 47⟩],
  [⟨0, true, 3735416614736491, 49⟩, ⟨2, true, 5046149288027707, 47⟩, ⟨4, false, 2103407384283997, 47⟩,
    ⟨6, false, 7288271485825785, 47⟩, ⟨8, false, 2022230519057745, 47⟩],
  [⟨9, false, 6029126542383735, 49⟩, ⟨11, false, 5633575671910711, 47⟩, ⟨13, false, 4235539604550453, 47⟩,
    ⟨15, true, 2641846924159781, 46⟩, ⟨17, true, 5692822554884865, 48⟩],
  [⟨0, true, 7819712720060287, 51⟩, ⟨2, false, 1611632197571777, 46⟩, ⟨4, false, 3024390843504391, 46⟩,
    ⟨6, true, 2619679911571919, 46⟩, ⟨8, true, 5167922437592015, 47⟩],
  [⟨9, true, 3851941957634053, 47⟩, ⟨11, true, 5633575671910711, 47⟩, ⟨13, false, 6562103612683801, 48⟩,
    ⟨15, false, 2641846924159781, 46⟩, ⟨17, true, 7743551140938491, 51⟩],
  [⟨0, false, 2911339197314753, 50⟩, ⟨2, false, 2285249282624449, 48⟩, ⟨4, true, 79843324085639, 41⟩,
    ⟨6, true, 6732138320240685, 47⟩, ⟨8, false, 5167922437592015, 46⟩],
  [⟨9, false, 3851941957634053, 46⟩, ⟨13, true, 6562103612683801, 47⟩, ⟨17, false, 7743551140938491, 50⟩]]

/-- The array `s2t10`: so3/_tensor_conversion_lut.npz. -/
def shippedS2t10 : List (List ShippedEntry) := [
  [⟨1, false, 7586569797953713, 61⟩, ⟨6, true, 7586569797953713, 61⟩, ⟨15, false, 7586569797953713, 61⟩,
    ⟨28, true, 7586569797953713, 61⟩, ⟨45, false, 7586569797953713, 61⟩],
  [⟨4, false, 6785634313708539, 62⟩, ⟨11, true, 6785634313708539, 62⟩, ⟨22, false, 6785634313708539, 62⟩,
    ⟨37, true, 6785634313708539, 62⟩, ⟨56, false, 6785634313708539, 62⟩],
  [⟨1, true, 4403100966573863, 61⟩, ⟨6, false, 4403100966573863, 62⟩, ⟨8, false, 4403100966573863, 62⟩,
    ⟨17, true, 4403100966573863, 62⟩, ⟨28, true, 4403100966573863, 62⟩, ⟨30, false, 4403100966573863, 62⟩,
    ⟨45, false, 4403100966573863, 61⟩, ⟨47, true, 4403100966573863, 62⟩],
  [⟨4, true, 6291454548202469, 62⟩, ⟨11, false, 5392675327030687, 63⟩, ⟨13, false, 3595116884687125, 62⟩,
    ⟨22, false, 3595116884687125, 64⟩, ⟨24, true, 3595116884687125, 62⟩, ⟨37, true, 2246948052929453, 61⟩,
    ⟨39, false, 3595116884687125, 62⟩, ⟨56, false, 8089012990546031, 62⟩, ⟨58, true, 3595116884687125, 62⟩],
  [⟨1, false, 91962835386989, 56⟩, ⟨6, true, 1307915881059399, 63⟩, ⟨8, true, 1307915881059399, 60⟩,
    ⟨15, true, 2179859801765665, 63⟩, ⟨17, false, 435971960353133, 60⟩, ⟨19, false, 435971960353133, 59⟩,
    ⟨28, true, 1307915881059399, 63⟩, ⟨30, false, 435971960353133, 60⟩, ⟨32, true, 435971960353133, 59⟩,
    ⟨45, false, 91962835386989, 56⟩, ⟨47, true, 1307915881059399, 60⟩, ⟨49, false, 435971960353133, 59⟩],
  [⟨4, false, 4874314698167243, 62⟩, ⟨13, true, 4874314698167243, 62⟩, ⟨22, true, 7798903517067589, 65⟩,
    ⟨24, false, 7798903517067589, 65⟩, ⟨26, false, 7798903517067589, 63⟩, ⟨37, true, 7798903517067589, 64⟩,
    ⟨39, false, 1462294409450173, 61⟩, ⟨41, true, 7798903517067589, 63⟩, ⟨56, false, 4386883228350519, 61⟩,
    ⟨58, true, 6824040577434141, 62⟩, ⟨60, false, 7798903517067589, 63⟩],
  [⟨1, true, 924836188718679, 60⟩, ⟨6, true, 308278729572893, 61⟩, ⟨8, false, 2157951107010251, 61⟩,
    ⟨17, false, 308278729572893, 61⟩, ⟨19, true, 308278729572893, 58⟩, ⟨28, false, 308278729572893, 61⟩,
    ⟨30, true, 308278729572893, 61⟩, ⟨34, false, 308278729572893, 58⟩, ⟨45, false, 924836188718679, 60⟩,
    ⟨47, true, 2157951107010251, 61⟩, ⟨49, false, 308278729572893, 58⟩, ⟨51, true, 308278729572893, 58⟩],
  [⟨4, true, 3051803722471931, 62⟩, ⟨11, true, 435971960353133, 61⟩, ⟨13, false, 3923747643178197, 62⟩,
    ⟨22, true, 435971960353133, 62⟩, ⟨24, false, 1307915881059399, 62⟩, ⟨26, true, 1307915881059399, 60⟩,
    ⟨39, false, 435971960353133, 62⟩, ⟨41, true, 435971960353133, 60⟩, ⟨43, false, 435971960353133, 58⟩,
    ⟨56, false, 4577705583707897, 61⟩, ⟨58, true, 4577705583707897, 61⟩, ⟨60, false, 2179859801765665, 60⟩,
    ⟨62, true, 435971960353133, 58⟩],
  [⟨1, false, 1795523853754555, 62⟩, ⟨6, false, 4788063610012147, 65⟩, ⟨8, true, 4788063610012147, 63⟩,
    ⟨15, false, 1710022717861481, 64⟩, ⟨17, true, 8208109045735109, 65⟩, ⟨19, false, 1710022717861481, 61⟩,
    ⟨28, false, 4788063610012147, 65⟩, ⟨30, true, 8208109045735109, 65⟩, ⟨32, false, 8208109045735109, 64⟩,
    ⟨34, true, 5472072697156739, 62⟩, ⟨45, false, 1795523853754555, 62⟩, ⟨47, true, 4788063610012147, 63⟩,
    ⟨49, false, 1710022717861481, 61⟩, ⟨51, true, 5472072697156739, 62⟩, ⟨53, false, 5472072697156739, 61⟩],
  [⟨4, false, 8293169442412693, 65⟩, ⟨11, false, 7108430950639451, 66⟩, ⟨13, true, 5923692458866209, 64⟩,
    ⟨22, false, 7108430950639451, 66⟩, ⟨24, true, 7108430950639451, 65⟩, ⟨26, false, 4738953967092967, 63⟩,
    ⟨37, false, 8293169442412693, 65⟩, ⟨39, true, 5923692458866209, 64⟩, ⟨41, false, 4738953967092967, 63⟩,
    ⟨43, true, 4738953967092967, 62⟩, ⟨56, false, 1166226952839285, 59⟩, ⟨58, true, 5183230901507933, 61⟩,
    ⟨60, false, 5923692458866209, 61⟩, ⟨62, true, 7108430950639451, 61⟩, ⟨64, false, 4738953967092967, 60⟩],
  [⟨0, true, 3145080204820687, 61⟩, ⟨3, true, 5591253697458999, 65⟩, ⟨5, false, 6989067121823749, 62⟩,
    ⟨10, true, 4792503169250571, 66⟩, ⟨12, false, 7987505282084285, 65⟩, ⟨14, true, 7987505282084285, 62⟩,
    ⟨21, true, 4792503169250571, 66⟩, ⟨23, false, 4792503169250571, 65⟩, ⟨25, true, 1597501056416857, 62⟩,
    ⟨27, false, 4792503169250571, 61⟩, ⟨36, true, 5591253697458999, 65⟩, ⟨38, false, 7987505282084285, 65⟩,
    ⟨40, true, 1597501056416857, 62⟩, ⟨42, false, 1597501056416857, 61⟩, ⟨44, true, 1597501056416857, 59⟩,
    ⟨55, true, 3145080204820687, 61⟩, ⟨57, false, 6989067121823749, 62⟩, ⟨59, true, 7987505282084285, 62⟩,
    ⟨61, false, 4792503169250571, 61⟩, ⟨63, true, 1597501056416857, 59⟩, ⟨65, false, 1597501056416857, 58⟩],
  [⟨2, false, 1166226952839285, 59⟩, ⟨7, false, 8293169442412693, 65⟩, ⟨9, true, 5183230901507933, 61⟩,
    ⟨16, false, 7108430950639451, 66⟩, ⟨18, true, 5923692458866209, 64⟩, ⟨20, false, 5923692458866209, 61⟩,
    ⟨29, false, 7108430950639451, 66⟩, ⟨31, true, 7108430950639451, 65⟩, ⟨33, false, 4738953967092967, 63⟩,
    ⟨35, true, 7108430950639451, 61⟩, ⟨46, false, 8293169442412693, 65⟩, ⟨48, true, 5923692458866209, 64⟩,
    ⟨50, false, 4738953967092967, 63⟩, ⟨52, true, 4738953967092967, 62⟩, ⟨54, false, 4738953967092967, 60⟩],
  [⟨0, false, 8977619268772775, 62⟩, ⟨3, false, 4788063610012147, 65⟩, ⟨5, true, 4788063610012147, 61⟩,
    ⟨10, false, 5472072697156739, 68⟩, ⟨12, true, 5472072697156739, 65⟩, ⟨14, false, 5130068153584443, 61⟩,
    ⟨21, true, 5472072697156739, 68⟩, ⟨25, false, 5472072697156739, 65⟩, ⟨27, true, 5472072697156739, 61⟩,
    ⟨36, true, 4788063610012147, 65⟩, ⟨38, false, 5472072697156739, 65⟩, ⟨40, true, 5472072697156739, 65⟩,
    ⟨44, false, 5472072697156739, 61⟩, ⟨55, true, 8977619268772775, 62⟩, ⟨57, false, 4788063610012147, 61⟩,
    ⟨59, true, 5130068153584443, 61⟩, ⟨61, false, 5472072697156739, 61⟩, ⟨63, true, 5472072697156739, 61⟩],
  [⟨2, true, 4577705583707897, 61⟩, ⟨9, false, 4577705583707897, 61⟩, ⟨16, false, 435971960353133, 62⟩,
    ⟨18, true, 435971960353133, 62⟩, ⟨20, true, 2179859801765665, 60⟩, ⟨29, false, 435971960353133, 61⟩,
    ⟨31, true, 1307915881059399, 62⟩, ⟨33, false, 435971960353133, 60⟩, ⟨35, false, 435971960353133, 58⟩,
    ⟨46, false, 3051803722471931, 62⟩, ⟨48, true, 3923747643178197, 62⟩, ⟨50, false, 1307915881059399, 60⟩,
    ⟨52, true, 435971960353133, 58⟩],
  [⟨0, true, 4624180943593395, 61⟩, ⟨3, false, 308278729572893, 61⟩, ⟨5, false, 2157951107010251, 60⟩,
    ⟨10, false, 308278729572893, 61⟩, ⟨12, true, 308278729572893, 60⟩, ⟨14, true, 924836188718679, 59⟩,
    ⟨21, false, 308278729572893, 61⟩, ⟨23, true, 308278729572893, 60⟩, ⟨25, false, 308278729572893, 59⟩,
    ⟨27, false, 308278729572893, 58⟩, ⟨36, false, 308278729572893, 61⟩, ⟨38, true, 308278729572893, 60⟩,
    ⟨40, false, 308278729572893, 59⟩, ⟨42, true, 308278729572893, 58⟩, ⟨55, true, 4624180943593395, 61⟩,
    ⟨57, false, 2157951107010251, 60⟩, ⟨59, true, 924836188718679, 59⟩, ⟨61, false, 308278729572893, 58⟩],
  [⟨2, false, 4386883228350519, 61⟩, ⟨7, true, 7798903517067589, 64⟩, ⟨9, true, 6824040577434141, 62⟩,
    ⟨16, true, 7798903517067589, 65⟩, ⟨18, false, 1462294409450173, 61⟩, ⟨20, false, 7798903517067589, 63⟩,
    ⟨31, false, 7798903517067589, 65⟩, ⟨33, true, 7798903517067589, 63⟩, ⟨46, false, 4874314698167243, 62⟩,
    ⟨48, true, 4874314698167243, 62⟩, ⟨50, false, 7798903517067589, 63⟩],
  [⟨0, false, 4904684553972747, 61⟩, ⟨3, true, 5667635484590729, 63⟩, ⟨5, true, 435971960353133, 58⟩,
    ⟨10, true, 1307915881059399, 63⟩, ⟨12, false, 435971960353133, 59⟩, ⟨14, false, 435971960353133, 59⟩,
    ⟨21, false, 1307915881059399, 63⟩, ⟨25, true, 435971960353133, 59⟩, ⟨36, false, 5667635484590729, 63⟩,
    ⟨38, true, 435971960353133, 59⟩, ⟨40, false, 435971960353133, 59⟩, ⟨55, true, 4904684553972747, 61⟩,
    ⟨57, false, 435971960353133, 58⟩, ⟨59, true, 435971960353133, 59⟩],
  [⟨2, true, 8089012990546031, 62⟩, ⟨7, false, 2246948052929453, 61⟩, ⟨9, false, 3595116884687125, 62⟩,
    ⟨16, true, 3595116884687125, 64⟩, ⟨18, true, 3595116884687125, 62⟩, ⟨29, true, 5392675327030687, 63⟩,
    ⟨31, false, 3595116884687125, 62⟩, ⟨46, false, 6291454548202469, 62⟩, ⟨48, true, 3595116884687125, 62⟩],
  [⟨0, true, 5503876208217329, 61⟩, ⟨3, false, 6604651449860795, 62⟩, ⟨5, false, 4403100966573863, 62⟩,
    ⟨10, true, 4403100966573863, 63⟩, ⟨12, true, 4403100966573863, 62⟩, ⟨21, true, 4403100966573863, 63⟩,
    ⟨23, false, 4403100966573863, 62⟩, ⟨36, false, 6604651449860795, 62⟩, ⟨38, true, 4403100966573863, 62⟩,
    ⟨55, true, 5503876208217329, 61⟩, ⟨57, false, 4403100966573863, 62⟩],
  [⟨2, false, 6785634313708539, 62⟩, ⟨7, true, 6785634313708539, 62⟩, ⟨16, false, 6785634313708539, 62⟩,
    ⟨29, true, 6785634313708539, 62⟩, ⟨46, false, 6785634313708539, 62⟩],
  [⟨0, false, 7586569797953713, 61⟩, ⟨3, true, 7586569797953713, 61⟩, ⟨10, false, 7586569797953713, 61⟩,
    ⟨21, true, 7586569797953713, 61⟩, ⟨36, false, 7586569797953713, 61⟩, ⟨55, true, 7586569797953713, 61⟩]]

/-- The array `t2s10`: so3/_tensor_conversion_lut.npz. -/
def shippedT2s10 : List (List ShippedEntry) := [
  [⟨10, false, 1349776546853041, 51⟩, ⟨14, true, 7759573406099353, 48⟩, ⟨16, false, 3323019998681815, 45⟩,
    ⟨18, true, 3457663521613401, 45⟩, ⟨20, false, 7256540980263843, 48⟩],
  [⟨0, false, 2997385276214131, 46⟩, ⟨2, true, 2485027328833427, 44⟩, ⟨4, false, 4059039779091603, 45⟩,
    ⟨6, true, 432844995410657, 44⟩, ⟨8, true, 2378125448047389, 51⟩],
  [⟨11, true, 5492045470387437, 53⟩, ⟨13, true, 2506839648128387, 47⟩, ⟨15, false, 6713520671818521, 46⟩,
    ⟨17, true, 2551293601322019, 44⟩, ⟨19, false, 5089858573043215, 46⟩],
  [⟨10, true, 1349776546853041, 52⟩, ⟨12, false, 8472071908668823, 49⟩, ⟨14, true, 7459026548820857, 47⟩,
    ⟨16, false, 3323019998681815, 50⟩, ⟨18, false, 3702999812980991, 45⟩, ⟨20, true, 7632496639603171, 47⟩],
  [⟨1, false, 8314855891700345, 46⟩, ⟨3, true, 883938837797835, 42⟩, ⟨5, false, 7808541519260765, 46⟩,
    ⟨7, true, 2390242455192183, 47⟩, ⟨9, true, 5492045470387437, 53⟩],
  [⟨10, true, 1349776546853041, 52⟩, ⟨12, true, 8472071908668823, 49⟩, ⟨14, false, 2834703312967633, 45⟩,
    ⟨16, true, 1713432186820311, 44⟩, ⟨18, true, 1962690330940719, 48⟩, ⟨20, false, 4004226149471249, 47⟩],
  [⟨0, true, 306242633813687, 42⟩, ⟨2, false, 1757702256979741, 44⟩, ⟨4, false, 3745684823075555, 46⟩,
    ⟨6, true, 1298534986231971, 44⟩, ⟨8, false, 6539844982130319, 49⟩],
  [⟨11, false, 3775781260891363, 49⟩, ⟨13, true, 1676084648457933, 45⟩, ⟨15, false, 1707711083511119, 46⟩,
    ⟨17, false, 2379852327107793, 44⟩, ⟨19, true, 2453980429211917, 44⟩],
  [⟨0, false, 3804993729609723, 47⟩, ⟨2, false, 363662535926843, 43⟩, ⟨4, true, 1482970547657345, 43⟩,
    ⟨6, false, 432844995410657, 42⟩, ⟨8, true, 743164202514809, 46⟩],
  [⟨11, true, 6865056837984297, 50⟩, ⟨13, false, 1151397280245015, 44⟩, ⟨15, true, 1052653969416205, 43⟩,
    ⟨17, false, 2743060387427623, 48⟩, ⟨19, false, 4726063143804453, 46⟩],
  [⟨10, true, 358534395257839, 46⟩, ⟨12, false, 8472071908668823, 49⟩, ⟨14, false, 1195356818721291, 45⟩,
    ⟨16, true, 6438351247446017, 46⟩, ⟨18, true, 6153971534733229, 47⟩, ⟨20, false, 5063466300784433, 46⟩],
  [⟨1, true, 6048508690631843, 45⟩, ⟨3, false, 7702485288923699, 46⟩, ⟨5, false, 1248193406459463, 44⟩,
    ⟨7, true, 7986907716129977, 47⟩, ⟨9, false, 3775781260891363, 49⟩],
  [⟨10, false, 1518498615209671, 48⟩, ⟨12, true, 8472071908668823, 48⟩, ⟨14, false, 669399818483923, 45⟩,
    ⟨16, false, 6230662497528403, 46⟩, ⟨18, true, 8658027717190735, 47⟩, ⟨20, true, 19487780952857, 40⟩],
  [⟨1, false, 1891080744781671, 45⟩, ⟨3, false, 6440536115841661, 46⟩, ⟨5, true, 6400657572549309, 45⟩,
    ⟨7, false, 648571885707635, 43⟩, ⟨9, true, 6865056837984297, 50⟩],
  [⟨10, true, 358534395257839, 46⟩, ⟨12, false, 6354053931501617, 47⟩, ⟨14, true, 876025782862889, 43⟩,
    ⟨16, false, 4984529998022723, 49⟩, ⟨18, false, 4819686441330547, 46⟩, ⟨20, true, 1509790187505553, 47⟩],
  [⟨0, false, 5593164896837713, 46⟩, ⟨4, true, 8744789470215303, 46⟩, ⟨8, false, 3567188172071083, 47⟩],
  [⟨11, false, 2059517051395289, 47⟩, ⟨13, false, 2798332630468897, 48⟩, ⟨15, true, 1955394370432579, 44⟩,
    ⟨17, true, 4241845959939623, 47⟩, ⟨19, false, 3126674229673681, 44⟩],
  [⟨0, true, 2773131023274883, 48⟩, ⟨2, true, 1757702256979741, 44⟩, ⟨4, false, 1249776161784937, 44⟩,
    ⟨6, false, 1298534986231971, 44⟩, ⟨8, true, 5202149417603663, 47⟩],
  [⟨11, true, 1501731183309065, 46⟩, ⟨13, false, 1326293069649321, 45⟩, ⟨15, false, 6113866398219197, 46⟩,
    ⟨17, true, 7398486328461359, 46⟩, ⟨19, true, 2690775201847057, 46⟩],
  [⟨0, true, 4836856435944563, 48⟩, ⟨2, false, 8243017481008441, 47⟩, ⟨4, false, 6864659734119013, 46⟩,
    ⟨6, true, 3029914967874599, 44⟩, ⟨8, false, 6688477822633281, 47⟩],
  [⟨11, false, 3861594471366167, 47⟩, ⟨13, true, 7258175260278701, 46⟩, ⟨15, false, 2307365357110443, 46⟩,
    ⟨17, false, 3356360615802227, 45⟩, ⟨19, true, 8141151767829585, 48⟩],
  [⟨10, true, 358534395257839, 46⟩, ⟨12, true, 8472071908668823, 49⟩, ⟨14, false, 1195356818721291, 45⟩,
    ⟨16, false, 6438351247446017, 46⟩, ⟨18, true, 6153971534733229, 47⟩, ⟨20, true, 5063466300784433, 46⟩],
  [⟨1, false, 3126674229673681, 44⟩, ⟨3, false, 4241845959939623, 47⟩, ⟨5, true, 1955394370432579, 44⟩,
    ⟨7, true, 2798332630468897, 48⟩, ⟨9, false, 2059517051395289, 47⟩],
  [⟨10, false, 358534395257839, 45⟩, ⟨14, true, 1195356818721291, 44⟩, ⟨18, false, 6153971534733229, 46⟩],
  [⟨1, true, 3277436299448303, 49⟩, ⟨3, true, 4911704134446755, 45⟩, ⟨5, false, 5657607711784929, 47⟩,
    ⟨7, false, 4693037015682213, 46⟩, ⟨9, true, 1501731183309065, 46⟩],
  [⟨10, true, 4386773777272383, 48⟩, ⟨12, false, 8472071908668823, 48⟩, ⟨14, false, 6885255275834637, 47⟩,
    ⟨16, true, 6230662497528403, 46⟩, ⟨18, true, 3649915352275723, 47⟩, ⟨20, false, 19487780952857, 40⟩],
  [⟨1, true, 210780122008269, 42⟩, ⟨3, false, 6765744306103699, 47⟩, ⟨5, false, 1246563911150769, 43⟩,
    ⟨7, true, 2470403025335823, 44⟩, ⟨9, false, 3861594471366167, 47⟩],
  [⟨10, false, 5820911358303739, 48⟩, ⟨12, true, 2647522471459007, 45⟩, ⟨14, false, 1782789312492897, 45⟩,
    ⟨16, false, 5607596247775563, 46⟩, ⟨18, true, 1497364382596343, 45⟩, ⟨20, true, 3938583097840573, 49⟩],
  [⟨0, true, 306242633813687, 42⟩, ⟨2, true, 1757702256979741, 44⟩, ⟨4, false, 3745684823075555, 46⟩,
    ⟨6, false, 1298534986231971, 44⟩, ⟨8, false, 6539844982130319, 49⟩],
  [⟨11, false, 3775781260891363, 49⟩, ⟨13, false, 7986907716129977, 47⟩, ⟨15, false, 1248193406459463, 44⟩,
    ⟨17, true, 7702485288923699, 46⟩, ⟨19, true, 6048508690631843, 45⟩],
  [⟨0, true, 2773131023274883, 48⟩, ⟨2, false, 1757702256979741, 44⟩, ⟨4, false, 1249776161784937, 44⟩,
    ⟨6, true, 1298534986231971, 44⟩, ⟨8, true, 5202149417603663, 47⟩],
  [⟨11, true, 1501731183309065, 46⟩, ⟨13, true, 4693037015682213, 46⟩, ⟨15, false, 5657607711784929, 47⟩,
    ⟨17, false, 4911704134446755, 45⟩, ⟨19, true, 3277436299448303, 49⟩],
  [⟨0, false, 2773131023274883, 47⟩, ⟨4, true, 1249776161784937, 43⟩, ⟨8, false, 5202149417603663, 46⟩],
  [⟨11, false, 1501731183309065, 45⟩, ⟨13, false, 8161803505534283, 48⟩, ⟨15, true, 8942670254111661, 46⟩,
    ⟨17, true, 2424921940432151, 46⟩, ⟨19, false, 3100454739278095, 46⟩],
  [⟨0, true, 5675244884841621, 51⟩, ⟨2, true, 8243017481008441, 47⟩, ⟨4, false, 6267099120320967, 47⟩,
    ⟨6, false, 3029914967874599, 44⟩, ⟨8, true, 534149270557519, 42⟩],
  [⟨11, true, 4934259602301213, 46⟩, ⟨13, false, 5217724383895131, 46⟩, ⟨15, false, 3317652448500609, 45⟩,
    ⟨17, true, 8575598582344605, 47⟩, ⟨19, true, 2130333594641397, 47⟩],
  [⟨10, true, 1349776546853041, 52⟩, ⟨12, true, 8472071908668823, 49⟩, ⟨14, true, 7459026548820857, 47⟩,
    ⟨16, true, 3323019998681815, 50⟩, ⟨18, false, 3702999812980991, 45⟩, ⟨20, false, 7632496639603171, 47⟩],
  [⟨1, true, 2453980429211917, 44⟩, ⟨3, true, 2379852327107793, 44⟩, ⟨5, false, 1707711083511119, 46⟩,
    ⟨7, false, 1676084648457933, 45⟩, ⟨9, false, 3775781260891363, 49⟩],
  [⟨10, false, 1518498615209671, 48⟩, ⟨12, false, 8472071908668823, 48⟩, ⟨14, false, 669399818483923, 45⟩,
    ⟨16, true, 6230662497528403, 46⟩, ⟨18, true, 8658027717190735, 47⟩, ⟨20, false, 19487780952857, 40⟩],
  [⟨1, true, 2690775201847057, 46⟩, ⟨3, false, 7398486328461359, 46⟩, ⟨5, false, 6113866398219197, 46⟩,
    ⟨7, true, 1326293069649321, 45⟩, ⟨9, true, 1501731183309065, 46⟩],
  [⟨10, true, 4386773777272383, 48⟩, ⟨12, true, 8472071908668823, 48⟩, ⟨14, false, 6885255275834637, 47⟩,
    ⟨16, false, 6230662497528403, 46⟩, ⟨18, true, 3649915352275723, 47⟩, ⟨20, true, 19487780952857, 40⟩],
  [⟨1, false, 3100454739278095, 46⟩, ⟨3, false, 2424921940432151, 46⟩, ⟨5, true, 8942670254111661, 46⟩,
    ⟨7, true, 8161803505534283, 48⟩, ⟨9, false, 1501731183309065, 45⟩],
  [⟨10, false, 4386773777272383, 47⟩, ⟨14, true, 6885255275834637, 46⟩, ⟨18, false, 3649915352275723, 46⟩],
  [⟨1, false, 8704870811334693, 51⟩, ⟨3, true, 5807794093484001, 46⟩, ⟨5, true, 8238728280755933, 49⟩,
    ⟨7, false, 745128936107929, 42⟩, ⟨9, true, 4934259602301213, 46⟩],
  [⟨10, true, 1824307364106063, 45⟩, ⟨12, false, 2647522471459007, 45⟩, ⟨14, false, 3319676650848843, 46⟩,
    ⟨16, true, 5607596247775563, 46⟩, ⟨18, true, 2620746348332149, 48⟩, ⟨20, false, 3938583097840573, 49⟩],
  [⟨0, false, 2997385276214131, 46⟩, ⟨2, false, 2485027328833427, 44⟩, ⟨4, false, 4059039779091603, 45⟩,
    ⟨6, false, 432844995410657, 44⟩, ⟨8, true, 2378125448047389, 51⟩],
  [⟨11, true, 5492045470387437, 53⟩, ⟨13, false, 2390242455192183, 47⟩, ⟨15, false, 7808541519260765, 46⟩,
    ⟨17, false, 883938837797835, 42⟩, ⟨19, false, 8314855891700345, 46⟩],
  [⟨0, false, 3804993729609723, 47⟩, ⟨2, true, 363662535926843, 43⟩, ⟨4, true, 1482970547657345, 43⟩,
    ⟨6, true, 432844995410657, 42⟩, ⟨8, true, 743164202514809, 46⟩],
  [⟨11, true, 6865056837984297, 50⟩, ⟨13, true, 648571885707635, 43⟩, ⟨15, true, 6400657572549309, 45⟩,
    ⟨17, true, 6440536115841661, 46⟩, ⟨19, false, 1891080744781671, 45⟩],
  [⟨0, true, 4836856435944563, 48⟩, ⟨2, true, 8243017481008441, 47⟩, ⟨4, false, 6864659734119013, 46⟩,
    ⟨6, false, 3029914967874599, 44⟩, ⟨8, false, 6688477822633281, 47⟩],
  [⟨11, false, 3861594471366167, 47⟩, ⟨13, false, 2470403025335823, 44⟩, ⟨15, false, 1246563911150769, 43⟩,
    ⟨17, true, 6765744306103699, 47⟩, ⟨19, true, 210780122008269, 42⟩],
  [⟨0, true, 5675244884841621, 51⟩, ⟨2, false, 8243017481008441, 47⟩, ⟨4, false, 6267099120320967, 47⟩,
    ⟨6, true, 3029914967874599, 44⟩, ⟨8, true, 534149270557519, 42⟩],
  [⟨11, true, 4934259602301213, 46⟩, ⟨13, true, 745128936107929, 42⟩, ⟨15, true, 8238728280755933, 49⟩,
    ⟨17, false, 5807794093484001, 46⟩, ⟨19, false, 8704870811334693, 51⟩],
  [⟨0, false, 5675244884841621, 50⟩, ⟨4, true, 6267099120320967, 46⟩, ⟨8, false, 534149270557519, 41⟩],
  [⟨11, false, 4934259602301213, 45⟩, ⟨13, false, 1676084648457933, 44⟩, ⟨15, true, 2802731930953363, 45⟩,
    ⟨17, true, 6079979209246793, 48⟩, ⟨19, false, 6345116675731915, 49⟩],
  [⟨10, false, 1349776546853041, 51⟩, ⟨14, true, 7759573406099353, 48⟩, ⟨16, true, 3323019998681815, 45⟩,
    ⟨18, true, 3457663521613401, 45⟩, ⟨20, true, 7256540980263843, 48⟩],
  [⟨1, false, 5089858573043215, 46⟩, ⟨3, false, 2551293601322019, 44⟩, ⟨5, false, 6713520671818521, 46⟩,
    ⟨7, false, 2506839648128387, 47⟩, ⟨9, true, 5492045470387437, 53⟩],
  [⟨10, true, 1349776546853041, 52⟩, ⟨12, false, 8472071908668823, 49⟩, ⟨14, false, 2834703312967633, 45⟩,
    ⟨16, false, 1713432186820311, 44⟩, ⟨18, true, 1962690330940719, 48⟩, ⟨20, true, 4004226149471249, 47⟩],
  [⟨1, false, 4726063143804453, 46⟩, ⟨3, true, 2743060387427623, 48⟩, ⟨5, true, 1052653969416205, 43⟩,
    ⟨7, true, 1151397280245015, 44⟩, ⟨9, true, 6865056837984297, 50⟩],
  [⟨10, true, 358534395257839, 46⟩, ⟨12, true, 6354053931501617, 47⟩, ⟨14, true, 876025782862889, 43⟩,
    ⟨16, true, 4984529998022723, 49⟩, ⟨18, false, 4819686441330547, 46⟩, ⟨20, false, 1509790187505553, 47⟩],
  [⟨1, true, 8141151767829585, 48⟩, ⟨3, true, 3356360615802227, 45⟩, ⟨5, false, 2307365357110443, 46⟩,
    ⟨7, false, 7258175260278701, 46⟩, ⟨9, false, 3861594471366167, 47⟩],
  [⟨10, false, 5820911358303739, 48⟩, ⟨12, false, 2647522471459007, 45⟩, ⟨14, false, 1782789312492897, 45⟩,
    ⟨16, true, 5607596247775563, 46⟩, ⟨18, true, 1497364382596343, 45⟩, ⟨20, false, 3938583097840573, 49⟩],
  [⟨1, true, 2130333594641397, 47⟩, ⟨3, false, 8575598582344605, 47⟩, ⟨5, false, 3317652448500609, 45⟩,
    ⟨7, true, 5217724383895131, 46⟩, ⟨9, true, 4934259602301213, 46⟩],
  [⟨10, true, 1824307364106063, 45⟩, ⟨12, true, 2647522471459007, 45⟩, ⟨14, false, 3319676650848843, 46⟩,
    ⟨16, false, 5607596247775563, 46⟩, ⟨18, true, 2620746348332149, 48⟩, ⟨20, true, 3938583097840573, 49⟩],
  [⟨1, false, 6345116675731915, 49⟩, ⟨3, false, 6079979209246793, 48⟩, ⟨5, true, 2802731930953363, 45⟩,
    ⟨7, true, 1676084648457933, 44⟩, ⟨9, false, 4934259602301213, 45⟩],
  [⟨10, false, 1824307364106063, 44⟩, ⟨14, true, 3319676650848843, 45⟩, ⟨18, false, 2620746348332149, 47⟩]]

/-- The array `s2t11`: so3/_tensor_conversion_lut.npz. -/
def shippedS2t11 : List (List ShippedEntry) := [
  [⟨1, false, 485318859305627, 58⟩, ⟨6, true, 485318859305627, 58⟩, ⟨15, false, 485318859305627, 58⟩,
    ⟨28, true, 485318859305627, 58⟩, ⟨45, false, 485318859305627, 58⟩, ⟨66, true, 485318859305627, 58⟩],
  [⟨4, false, 6622101021750233, 63⟩, ⟨11, true, 6622101021750233, 63⟩, ⟨22, false, 6622101021750233, 63⟩,
    ⟨37, true, 6622101021750233, 63⟩, ⟨56, false, 6622101021750233, 63⟩],
  [⟨1, true, 4598155671495537, 62⟩, ⟨6, false, 5109061857217263, 63⟩, ⟨8, false, 8174498971547621, 64⟩,
    ⟨15, true, 8174498971547621, 66⟩, ⟨17, true, 8174498971547621, 64⟩, ⟨28, true, 1532718557165179, 62⟩,
    ⟨30, false, 8174498971547621, 64⟩, ⟨45, false, 7152686600104169, 63⟩, ⟨47, true, 8174498971547621, 64⟩,
    ⟨66, true, 2809984021469495, 61⟩, ⟨68, false, 8174498971547621, 64⟩],
  [⟨4, true, 6331939676078719, 63⟩, ⟨11, false, 6331939676078719, 64⟩, ⟨13, false, 6331939676078719, 64⟩,
    ⟨24, true, 6331939676078719, 64⟩, ⟨37, true, 6331939676078719, 64⟩, ⟨39, false, 6331939676078719, 64⟩,
    ⟨56, false, 6331939676078719, 63⟩, ⟨58, true, 6331939676078719, 64⟩],
  [⟨1, false, 6355328820801303, 63⟩, ⟨6, true, 2542131528320521, 64⟩, ⟨8, true, 2542131528320521, 62⟩,
    ⟨15, true, 907904117257329, 63⟩, ⟨17, false, 4357939762835179, 64⟩, ⟨19, false, 2905293175223453, 63⟩,
    ⟨28, false, 2905293175223453, 67⟩, ⟨30, false, 2905293175223453, 65⟩, ⟨32, true, 2905293175223453, 63⟩,
    ⟨45, false, 1725017822788925, 62⟩, ⟨47, true, 907904117257329, 61⟩, ⟨49, false, 2905293175223453, 63⟩,
    ⟨66, true, 2496736322457655, 61⟩, ⟨68, false, 6536909644252769, 63⟩, ⟨70, true, 2905293175223453, 63⟩],
  [⟨4, false, 1291970208409985, 61⟩, ⟨11, true, 4593671852124391, 66⟩, ⟨13, true, 4593671852124391, 63⟩,
    ⟨22, true, 7656119753540651, 66⟩, ⟨24, false, 6124895802832521, 65⟩, ⟨26, false, 6124895802832521, 64⟩,
    ⟨37, true, 4593671852124391, 66⟩, ⟨39, false, 6124895802832521, 65⟩, ⟨41, true, 6124895802832521, 64⟩,
    ⟨56, false, 1291970208409985, 61⟩, ⟨58, true, 4593671852124391, 63⟩, ⟨60, false, 6124895802832521, 64⟩],
  [⟨1, true, 8528274183041389, 64⟩, ⟨6, true, 2274206448811037, 66⟩, ⟨8, false, 2274206448811037, 62⟩,
    ⟨15, false, 2274206448811037, 66⟩, ⟨19, true, 2274206448811037, 62⟩, ⟨28, false, 2501627093692141, 65⟩,
    ⟨30, true, 7277460636195319, 66⟩, ⟨32, false, 7277460636195319, 66⟩, ⟨34, false, 7277460636195319, 64⟩,
    ⟨45, false, 2387916771251589, 64⟩, ⟨47, true, 7277460636195319, 65⟩, ⟨49, false, 5458095477146489, 64⟩,
    ⟨51, true, 7277460636195319, 64⟩, ⟨66, true, 1172637700168191, 60⟩, ⟨68, false, 4093571607859867, 62⟩,
    ⟨70, true, 795972257083863, 60⟩, ⟨72, false, 7277460636195319, 64⟩],
  [⟨4, true, 3610190816144009, 63⟩, ⟨11, true, 4813587754858679, 66⟩, ⟨13, false, 131621540171917, 58⟩,
    ⟨24, false, 4813587754858679, 66⟩, ⟨26, true, 4813587754858679, 63⟩, ⟨37, false, 4813587754858679, 66⟩,
    ⟨39, true, 4813587754858679, 66⟩, ⟨43, false, 4813587754858679, 63⟩, ⟨56, false, 3610190816144009, 63⟩,
    ⟨58, true, 131621540171917, 58⟩, ⟨60, false, 4813587754858679, 63⟩, ⟨62, true, 4813587754858679, 63⟩],
  [⟨1, false, 4943457367250149, 64⟩, ⟨6, false, 2416801379544517, 65⟩, ⟨8, true, 768982257127801, 61⟩,
    ⟨15, false, 4394184326444577, 67⟩, ⟨17, true, 7030694922311323, 66⟩, ⟨19, false, 3954765893800119, 63⟩,
    ⟨28, false, 1318255297933373, 66⟩, ⟨30, true, 7030694922311323, 67⟩, ⟨32, false, 1318255297933373, 63⟩,
    ⟨34, true, 1318255297933373, 61⟩, ⟨45, true, 1318255297933373, 66⟩, ⟨49, false, 7030694922311323, 67⟩,
    ⟨51, true, 7030694922311323, 65⟩, ⟨53, false, 7030694922311323, 63⟩, ⟨66, true, 2265751293322985, 61⟩,
    ⟨68, false, 2306946771383403, 61⟩, ⟨70, true, 2306946771383403, 61⟩, ⟨72, false, 4394184326444577, 62⟩,
    ⟨74, true, 7030694922311323, 63⟩],
  [⟨4, false, 924836188718679, 62⟩, ⟨11, false, 308278729572893, 62⟩, ⟨13, true, 308278729572893, 60⟩,
    ⟨22, false, 3523185480833063, 66⟩, ⟨24, true, 8455645153999351, 66⟩, ⟨26, false, 3523185480833063, 63⟩,
    ⟨37, false, 308278729572893, 62⟩, ⟨39, true, 8455645153999351, 66⟩, ⟨41, false, 8455645153999351, 65⟩,
    ⟨43, true, 5637096769332901, 63⟩, ⟨56, false, 924836188718679, 62⟩, ⟨58, true, 308278729572893, 60⟩,
    ⟨60, false, 3523185480833063, 63⟩, ⟨62, true, 5637096769332901, 63⟩, ⟨64, false, 5637096769332901, 62⟩],
  [⟨1, true, 1622269991722133, 64⟩, ⟨6, true, 8652106622518043, 68⟩, ⟨8, false, 8652106622518043, 66⟩,
    ⟨15, true, 6180076158941459, 68⟩, ⟨17, false, 7416091390729751, 67⟩, ⟨19, true, 6180076158941459, 65⟩,
    ⟨28, true, 8652106622518043, 68⟩, ⟨30, false, 7416091390729751, 67⟩, ⟨32, true, 7416091390729751, 66⟩,
    ⟨34, false, 4944060927153167, 64⟩, ⟨45, true, 1622269991722133, 64⟩, ⟨47, false, 8652106622518043, 66⟩,
    ⟨49, true, 6180076158941459, 65⟩, ⟨51, false, 4944060927153167, 64⟩, ⟨53, true, 4944060927153167, 63⟩,
    ⟨66, true, 2230621238617933, 61⟩, ⟨68, false, 4866809975166399, 62⟩, ⟨70, true, 5407566639073777, 62⟩,
    ⟨72, false, 6180076158941459, 62⟩, ⟨74, true, 7416091390729751, 62⟩, ⟨76, false, 4944060927153167, 61⟩],
  [⟨2, true, 6589691857719535, 63⟩, ⟨7, true, 1464375968382119, 64⟩, ⟨9, false, 3660939920955297, 62⟩,
    ⟨16, true, 2510358802940775, 66⟩, ⟨18, false, 8367862676469251, 66⟩, ⟨20, true, 8367862676469251, 63⟩,
    ⟨29, true, 2510358802940775, 66⟩, ⟨31, false, 2510358802940775, 65⟩, ⟨33, true, 6694290141175401, 65⟩,
    ⟨35, false, 2510358802940775, 61⟩, ⟨46, true, 1464375968382119, 64⟩, ⟨48, false, 8367862676469251, 66⟩,
    ⟨50, true, 6694290141175401, 65⟩, ⟨52, false, 6694290141175401, 64⟩, ⟨54, true, 6694290141175401, 62⟩,
    ⟨67, true, 6589691857719535, 63⟩, ⟨69, false, 3660939920955297, 62⟩, ⟨71, true, 8367862676469251, 63⟩,
    ⟨73, false, 2510358802940775, 61⟩, ⟨75, true, 6694290141175401, 62⟩, ⟨77, false, 6694290141175401, 61⟩],
  [⟨0, true, 2230621238617933, 61⟩, ⟨3, true, 1622269991722133, 64⟩, ⟨5, false, 4866809975166399, 62⟩,
    ⟨10, true, 8652106622518043, 68⟩, ⟨12, false, 8652106622518043, 66⟩, ⟨14, true, 5407566639073777, 62⟩,
    ⟨21, true, 6180076158941459, 68⟩, ⟨23, false, 7416091390729751, 67⟩, ⟨25, true, 6180076158941459, 65⟩,
    ⟨27, false, 6180076158941459, 62⟩, ⟨36, true, 8652106622518043, 68⟩, ⟨38, false, 7416091390729751, 67⟩,
    ⟨40, true, 7416091390729751, 66⟩, ⟨42, false, 4944060927153167, 64⟩, ⟨44, true, 7416091390729751, 62⟩,
    ⟨55, true, 1622269991722133, 64⟩, ⟨57, false, 8652106622518043, 66⟩, ⟨59, true, 6180076158941459, 65⟩,
    ⟨61, false, 4944060927153167, 64⟩, ⟨63, true, 4944060927153167, 63⟩, ⟨65, false, 4944060927153167, 61⟩],
  [⟨2, false, 4624180943593395, 62⟩, ⟨7, false, 308278729572893, 62⟩, ⟨9, true, 308278729572893, 58⟩,
    ⟨16, false, 5637096769332901, 69⟩, ⟨18, true, 5637096769332901, 66⟩, ⟨20, false, 2642389110624797, 61⟩,
    ⟨29, true, 5637096769332901, 69⟩, ⟨33, false, 5637096769332901, 66⟩, ⟨35, true, 5637096769332901, 62⟩,
    ⟨46, true, 308278729572893, 62⟩, ⟨48, false, 5637096769332901, 66⟩, ⟨50, true, 5637096769332901, 66⟩,
    ⟨54, false, 5637096769332901, 62⟩, ⟨67, true, 4624180943593395, 62⟩, ⟨69, false, 308278729572893, 58⟩,
    ⟨71, true, 2642389110624797, 61⟩, ⟨73, false, 5637096769332901, 62⟩, ⟨75, true, 5637096769332901, 62⟩],
  [⟨0, false, 2265751293322985, 61⟩, ⟨3, false, 1318255297933373, 66⟩, ⟨5, true, 2306946771383403, 61⟩,
    ⟨10, true, 1318255297933373, 66⟩, ⟨14, false, 2306946771383403, 61⟩, ⟨21, true, 4394184326444577, 67⟩,
    ⟨23, false, 7030694922311323, 67⟩, ⟨25, true, 7030694922311323, 67⟩, ⟨27, true, 4394184326444577, 62⟩,
    ⟨36, true, 2416801379544517, 65⟩, ⟨38, false, 7030694922311323, 66⟩, ⟨40, true, 1318255297933373, 63⟩,
    ⟨42, false, 7030694922311323, 65⟩, ⟨44, false, 7030694922311323, 63⟩, ⟨55, true, 4943457367250149, 64⟩,
    ⟨57, false, 768982257127801, 61⟩, ⟨59, true, 3954765893800119, 63⟩, ⟨61, false, 1318255297933373, 61⟩,
    ⟨63, true, 7030694922311323, 63⟩],
  [⟨2, true, 4512738520180011, 62⟩, ⟨7, false, 4813587754858679, 66⟩, ⟨9, false, 131621540171917, 57⟩,
    ⟨16, false, 4813587754858679, 66⟩, ⟨18, true, 4813587754858679, 65⟩, ⟨20, true, 3610190816144009, 62⟩,
    ⟨29, false, 4813587754858679, 66⟩, ⟨31, true, 4813587754858679, 65⟩, ⟨33, false, 4813587754858679, 64⟩,
    ⟨35, false, 4813587754858679, 63⟩, ⟨46, false, 4813587754858679, 66⟩, ⟨48, true, 4813587754858679, 65⟩,
    ⟨50, false, 4813587754858679, 64⟩, ⟨52, true, 4813587754858679, 63⟩, ⟨67, true, 4512738520180011, 62⟩,
    ⟨69, false, 131621540171917, 57⟩, ⟨71, true, 3610190816144009, 62⟩, ⟨73, false, 4813587754858679, 63⟩],
  [⟨0, true, 1172637700168191, 60⟩, ⟨3, false, 2387916771251589, 64⟩, ⟨5, false, 4093571607859867, 62⟩,
    ⟨10, false, 2501627093692141, 65⟩, ⟨12, true, 7277460636195319, 65⟩, ⟨14, true, 795972257083863, 60⟩,
    ⟨21, false, 2274206448811037, 66⟩, ⟨23, true, 7277460636195319, 66⟩, ⟨25, false, 5458095477146489, 64⟩,
    ⟨27, false, 7277460636195319, 64⟩, ⟨36, true, 2274206448811037, 66⟩, ⟨40, false, 7277460636195319, 66⟩,
    ⟨42, true, 7277460636195319, 64⟩, ⟨55, true, 8528274183041389, 64⟩, ⟨57, false, 2274206448811037, 62⟩,
    ⟨59, true, 2274206448811037, 62⟩, ⟨61, false, 7277460636195319, 64⟩],
  [⟨2, false, 8613134722733233, 63⟩, ⟨7, true, 4976477839801423, 64⟩, ⟨9, true, 6124895802832521, 63⟩,
    ⟨16, true, 4593671852124391, 66⟩, ⟨18, false, 6124895802832521, 64⟩, ⟨20, false, 6124895802832521, 64⟩,
    ⟨29, false, 4593671852124391, 66⟩, ⟨33, true, 6124895802832521, 64⟩, ⟨46, false, 4976477839801423, 64⟩,
    ⟨48, true, 6124895802832521, 64⟩, ⟨50, false, 6124895802832521, 64⟩, ⟨67, true, 8613134722733233, 63⟩,
    ⟨69, false, 6124895802832521, 63⟩, ⟨71, true, 6124895802832521, 64⟩],
  [⟨0, false, 2496736322457655, 61⟩, ⟨3, true, 1725017822788925, 62⟩, ⟨5, true, 6536909644252769, 63⟩,
    ⟨10, true, 2905293175223453, 67⟩, ⟨12, false, 907904117257329, 61⟩, ⟨14, false, 2905293175223453, 63⟩,
    ⟨21, false, 907904117257329, 63⟩, ⟨23, true, 2905293175223453, 65⟩, ⟨25, true, 2905293175223453, 63⟩,
    ⟨36, false, 2542131528320521, 64⟩, ⟨38, true, 4357939762835179, 64⟩, ⟨40, false, 2905293175223453, 63⟩,
    ⟨55, true, 6355328820801303, 63⟩, ⟨57, false, 2542131528320521, 62⟩, ⟨59, true, 2905293175223453, 63⟩],
  [⟨2, true, 3957462297549199, 62⟩, ⟨7, false, 4748954757059039, 63⟩, ⟨9, false, 6331939676078719, 64⟩,
    ⟨16, true, 6331939676078719, 65⟩, ⟨18, true, 6331939676078719, 64⟩, ⟨29, true, 6331939676078719, 65⟩,
    ⟨31, false, 6331939676078719, 64⟩, ⟨46, false, 4748954757059039, 63⟩, ⟨48, true, 6331939676078719, 64⟩,
    ⟨67, true, 3957462297549199, 62⟩, ⟨69, false, 6331939676078719, 64⟩],
  [⟨0, true, 2809984021469495, 61⟩, ⟨3, false, 7152686600104169, 63⟩, ⟨5, false, 8174498971547621, 64⟩,
    ⟨10, true, 1532718557165179, 62⟩, ⟨12, true, 8174498971547621, 64⟩, ⟨21, true, 8174498971547621, 66⟩,
    ⟨23, false, 8174498971547621, 64⟩, ⟨36, false, 5109061857217263, 63⟩, ⟨38, true, 8174498971547621, 64⟩,
    ⟨55, true, 4598155671495537, 62⟩, ⟨57, false, 8174498971547621, 64⟩],
  [⟨2, false, 6622101021750233, 63⟩, ⟨7, true, 6622101021750233, 63⟩, ⟨16, false, 6622101021750233, 63⟩,
    ⟨29, true, 6622101021750233, 63⟩, ⟨46, false, 6622101021750233, 63⟩, ⟨67, true, 6622101021750233, 63⟩],
  [⟨0, false, 485318859305627, 58⟩, ⟨3, true, 485318859305627, 58⟩, ⟨10, false, 485318859305627, 58⟩,
    ⟨21, true, 485318859305627, 58⟩, ⟨36, false, 485318859305627, 58⟩, ⟨55, true, 485318859305627, 58⟩]]

/-- The array `t2s11`: so3/_tensor_conversion_lut.npz. -/
def shippedT2s11 : List (List ShippedEntry) := [
  [⟨12, false, 6978132320925191, 52⟩, ⟨14, false, 613387291967879, 49⟩, ⟨16, true, 1305546368574617, 44⟩,
    ⟨18, false, 3580470172649635, 44⟩, ⟨20, true, 3088596071482687, 44⟩, ⟨22, false, 5463984028234701, 47⟩],
  [⟨0, false, 4730851822153381, 46⟩, ⟨2, true, 4506413650918943, 44⟩, ⟨4, false, 8796070043578131, 45⟩,
    ⟨6, true, 1305546368574617, 44⟩, ⟨8, true, 613387291967879, 49⟩, ⟨10, false, 6978132320925191, 52⟩],
  [⟨11, false, 644211533725315, 49⟩, ⟨15, true, 7951196665714949, 47⟩, ⟨17, false, 3784537310686631, 44⟩,
    ⟨19, true, 4808776574931439, 44⟩, ⟨21, false, 2078353020350507, 44⟩],
  [⟨12, true, 6978132320925191, 53⟩, ⟨14, false, 6517239977158715, 47⟩, ⟨16, true, 8536976963303523, 46⟩,
    ⟨18, true, 8697498395100327, 48⟩, ⟨20, false, 7785116803365285, 45⟩, ⟨22, true, 1608141832569213, 44⟩],
  [⟨1, false, 3433936228799343, 44⟩, ⟨3, true, 432009257561541, 40⟩, ⟨5, false, 1155694781827003, 42⟩,
    ⟨7, true, 7096546171624017, 47⟩, ⟨9, true, 4617013284380341, 51⟩],
  [⟨12, true, 6978132320925191, 53⟩, ⟨14, true, 6670586800150685, 47⟩, ⟨16, false, 1719895304700249, 43⟩,
    ⟨18, true, 6073753045911729, 45⟩, ⟨20, true, 1607924660399911, 45⟩, ⟨22, false, 7401150632319003, 47⟩],
  [⟨0, true, 8458138261782093, 46⟩, ⟨2, false, 7607889605935753, 45⟩, ⟨4, false, 4169000897384757, 46⟩,
    ⟨6, true, 5861069867430727, 45⟩, ⟨8, false, 6670586800150685, 47⟩, ⟨10, true, 6978132320925191, 53⟩],
  [⟨11, true, 644211533725315, 50⟩, ⟨13, false, 8224054912802483, 48⟩, ⟨15, true, 3821613890387643, 45⟩,
    ⟨17, false, 3784537310686631, 49⟩, ⟨19, false, 5149980224024085, 44⟩, ⟨21, true, 8744123398119403, 45⟩],
  [⟨0, false, 7454572879257423, 47⟩, ⟨2, false, 1404937695902133, 45⟩, ⟨4, true, 5440285246135255, 44⟩,
    ⟨6, false, 8472162604579961, 45⟩, ⟨8, true, 6517239977158715, 47⟩, ⟨10, true, 6978132320925191, 53⟩],
  [⟨11, true, 644211533725315, 50⟩, ⟨13, true, 8224054912802483, 48⟩, ⟨15, false, 1452353264204095, 43⟩,
    ⟨17, true, 975701025411397, 42⟩, ⟨19, true, 5459258385482331, 48⟩, ⟨21, false, 4587417357418389, 45⟩],
  [⟨12, true, 7414265590983015, 49⟩, ⟨14, false, 5290465393222957, 47⟩, ⟨16, false, 7759204658620773, 46⟩,
    ⟨18, true, 6514426297930145, 45⟩, ⟨20, true, 2236205379194429, 44⟩, ⟨22, false, 2326393095499539, 44⟩],
  [⟨1, true, 2806760100947727, 43⟩, ⟨3, false, 152783761820545, 39⟩, ⟨5, false, 1066475974612351, 43⟩,
    ⟨7, true, 5322409628718013, 45⟩, ⟨9, false, 6348393266022969, 48⟩],
  [⟨12, false, 981299857630105, 46⟩, ⟨14, true, 1475963171297709, 44⟩, ⟨16, false, 1555544609365501, 47⟩,
    ⟨18, false, 3800806798658843, 44⟩, ⟨20, true, 6625412089952853, 46⟩, ⟨22, true, 5746010103442607, 47⟩],
  [⟨1, false, 8718335892384445, 46⟩, ⟨3, false, 4046135485454433, 45⟩, ⟨5, true, 3377865538266357, 43⟩,
    ⟨7, false, 7096546171624017, 45⟩, ⟨9, true, 5771266605475427, 48⟩],
  [⟨12, true, 7414265590983015, 49⟩, ⟨14, false, 4619573042633089, 45⟩, ⟨16, true, 7268467371142371, 45⟩,
    ⟨18, true, 3055721102811915, 46⟩, ⟨20, false, 4920630705376337, 45⟩, ⟨22, true, 6620562115505583, 49⟩],
  [⟨0, false, 5066401836394133, 45⟩, ⟨2, true, 7256011187783513, 47⟩, ⟨4, true, 4222635470821209, 44⟩,
    ⟨6, false, 2287020943531421, 45⟩, ⟨8, false, 7897361384086443, 47⟩, ⟨10, true, 7414265590983015, 49⟩],
  [⟨11, true, 5475798036665177, 49⟩, ⟨13, false, 8224054912802483, 48⟩, ⟨15, false, 4899504987676465, 46⟩,
    ⟨17, true, 1833135259863837, 43⟩, ⟨19, true, 4279345571660979, 45⟩, ⟨21, false, 5800929400550675, 44⟩],
  [⟨0, true, 837332705503087, 45⟩, ⟨2, true, 2896943404494937, 44⟩, ⟨4, false, 6360770492950039, 45⟩,
    ⟨6, false, 1787024461949653, 44⟩, ⟨8, true, 1820993523029641, 44⟩, ⟨10, false, 981299857630105, 46⟩],
  [⟨11, false, 5797903803527835, 49⟩, ⟨13, true, 8224054912802483, 47⟩, ⟨15, false, 5487445586197641, 47⟩,
    ⟨17, false, 7096007457537433, 45⟩, ⟨19, true, 3010307438193595, 44⟩, ⟨21, true, 5715470805963895, 46⟩],
  [⟨0, true, 8210484114490151, 48⟩, ⟨2, false, 8777898226175483, 46⟩, ⟨4, false, 2259899999660235, 44⟩,
    ⟨6, true, 6023105764239633, 44⟩, ⟨8, false, 5271297040348961, 45⟩, ⟨10, true, 7414265590983015, 49⟩],
  [⟨11, true, 5475798036665177, 49⟩, ⟨13, false, 3084020592300931, 45⟩, ⟨15, true, 3590637226682895, 44⟩,
    ⟨17, false, 2838402983014973, 47⟩, ⟨19, false, 3351511087286241, 44⟩, ⟨21, true, 6918727817745767, 47⟩],
  [⟨12, true, 7414265590983015, 49⟩, ⟨14, true, 7897361384086443, 47⟩, ⟨16, false, 2287020943531421, 45⟩,
    ⟨18, false, 4222635470821209, 44⟩, ⟨20, true, 7256011187783513, 47⟩, ⟨22, true, 5066401836394133, 45⟩],
  [⟨1, false, 6407775378532173, 44⟩, ⟨5, true, 1244913589041655, 42⟩, ⟨9, false, 432844995410657, 43⟩],
  [⟨12, false, 7414265590983015, 48⟩, ⟨14, false, 1303447995431743, 46⟩, ⟨16, true, 385413954552613, 41⟩,
    ⟨18, true, 7723378574849091, 47⟩, ⟨20, false, 392900847208421, 41⟩, ⟨22, false, 1654462581580223, 47⟩],
  [⟨1, true, 1588510353273437, 45⟩, ⟨3, true, 152783761820545, 39⟩, ⟨5, false, 5693404813883835, 45⟩,
    ⟨7, false, 5322409628718013, 45⟩, ⟨9, true, 2524929139895499, 45⟩],
  [⟨12, true, 2834866255375859, 46⟩, ⟨14, false, 4600404689759093, 46⟩, ⟨16, false, 361108570031277, 41⟩,
    ⟨18, true, 5670768953605413, 45⟩, ⟨20, true, 1486853755179155, 44⟩, ⟨22, false, 255721720116399, 43⟩],
  [⟨1, true, 5541315185837571, 46⟩, ⟨3, false, 5732025271060447, 45⟩, ⟨5, false, 7818057339181593, 45⟩,
    ⟨7, true, 6209477900171015, 44⟩, ⟨9, false, 6492674931159855, 46⟩],
  [⟨12, false, 7523298908497471, 47⟩, ⟨14, true, 1729943846878159, 43⟩, ⟨16, false, 2981460501283877, 46⟩,
    ⟨18, false, 7198629505011371, 45⟩, ⟨20, true, 7787692780072109, 47⟩, ⟨22, true, 609101748246497, 45⟩],
  [⟨0, true, 2326393095499539, 44⟩, ⟨2, true, 2236205379194429, 44⟩, ⟨4, false, 6514426297930145, 45⟩,
    ⟨6, false, 7759204658620773, 46⟩, ⟨8, true, 5290465393222957, 47⟩, ⟨10, true, 7414265590983015, 49⟩],
  [⟨11, true, 5475798036665177, 49⟩, ⟨13, true, 8224054912802483, 48⟩, ⟨15, false, 4899504987676465, 46⟩,
    ⟨17, false, 1833135259863837, 43⟩, ⟨19, true, 4279345571660979, 45⟩, ⟨21, true, 5800929400550675, 44⟩],
  [⟨0, true, 1654462581580223, 47⟩, ⟨2, false, 392900847208421, 41⟩, ⟨4, false, 7723378574849091, 47⟩,
    ⟨6, true, 385413954552613, 41⟩, ⟨8, true, 1303447995431743, 46⟩, ⟨10, false, 7414265590983015, 48⟩],
  [⟨11, false, 5475798036665177, 48⟩, ⟨15, true, 4899504987676465, 45⟩, ⟨19, false, 4279345571660979, 44⟩],
  [⟨0, false, 5003793403592571, 47⟩, ⟨2, true, 3940213970758897, 48⟩, ⟨4, true, 1036451892082789, 42⟩,
    ⟨6, false, 5185148697885003, 46⟩, ⟨8, false, 8587422087550307, 46⟩, ⟨10, true, 2834866255375859, 46⟩],
  [⟨11, true, 8374749938429095, 48⟩, ⟨13, false, 8224054912802483, 47⟩, ⟨15, false, 3527643591127055, 45⟩,
    ⟨17, true, 7096007457537433, 45⟩, ⟨19, true, 158629766683423, 41⟩, ⟨21, false, 5715470805963895, 46⟩],
  [⟨0, true, 3594205385389981, 49⟩, ⟨2, true, 3896422366742879, 45⟩, ⟨4, false, 1885907568670921, 44⟩,
    ⟨6, false, 2363409294884191, 43⟩, ⟨8, true, 4782504042062057, 44⟩, ⟨10, false, 7523298908497471, 47⟩],
  [⟨11, false, 2778162239190421, 46⟩, ⟨13, true, 321252145031347, 41⟩, ⟨15, false, 7307261724477471, 46⟩,
    ⟨17, false, 3193203355891845, 44⟩, ⟨19, true, 2082472953818857, 44⟩, ⟨21, true, 2256106897091011, 46⟩],
  [⟨12, true, 6978132320925191, 53⟩, ⟨14, true, 6670586800150685, 47⟩, ⟨16, true, 5861069867430727, 45⟩,
    ⟨18, true, 4169000897384757, 46⟩, ⟨20, false, 7607889605935753, 45⟩, ⟨22, false, 8458138261782093, 46⟩],
  [⟨1, true, 2806760100947727, 43⟩, ⟨3, true, 152783761820545, 39⟩, ⟨5, false, 1066475974612351, 43⟩,
    ⟨7, false, 5322409628718013, 45⟩, ⟨9, false, 6348393266022969, 48⟩],
  [⟨12, false, 981299857630105, 46⟩, ⟨14, false, 1820993523029641, 44⟩, ⟨16, false, 1787024461949653, 44⟩,
    ⟨18, true, 6360770492950039, 45⟩, ⟨20, true, 2896943404494937, 44⟩, ⟨22, false, 837332705503087, 45⟩],
  [⟨1, true, 1588510353273437, 45⟩, ⟨3, false, 152783761820545, 39⟩, ⟨5, false, 5693404813883835, 45⟩,
    ⟨7, true, 5322409628718013, 45⟩, ⟨9, true, 2524929139895499, 45⟩],
  [⟨12, true, 2834866255375859, 46⟩, ⟨14, true, 8587422087550307, 46⟩, ⟨16, false, 5185148697885003, 46⟩,
    ⟨18, false, 1036451892082789, 42⟩, ⟨20, true, 3940213970758897, 48⟩, ⟨22, true, 5003793403592571, 47⟩],
  [⟨1, false, 1588510353273437, 44⟩, ⟨5, true, 5693404813883835, 44⟩, ⟨9, false, 2524929139895499, 44⟩],
  [⟨12, false, 2834866255375859, 45⟩, ⟨14, false, 1993508698895607, 45⟩, ⟨16, true, 4185155734721467, 44⟩,
    ⟨18, true, 5241692366113797, 46⟩, ⟨20, false, 866558564175793, 43⟩, ⟨22, false, 7297967053841495, 50⟩],
  [⟨1, true, 812726227256177, 46⟩, ⟨3, true, 5732025271060447, 45⟩, ⟨5, false, 7137504577172155, 46⟩,
    ⟨7, false, 6209477900171015, 44⟩, ⟨9, true, 4148097872685463, 44⟩],
  [⟨12, true, 4715690982500227, 45⟩, ⟨14, false, 4926266688617029, 45⟩, ⟨16, false, 1719895304700249, 43⟩,
    ⟨18, true, 572222915244309, 42⟩, ⟨20, true, 1519311061685145, 45⟩, ⟨22, false, 6096644445023205, 49⟩],
  [⟨0, false, 1608141832569213, 44⟩, ⟨2, false, 7785116803365285, 45⟩, ⟨4, false, 8697498395100327, 48⟩,
    ⟨6, true, 8536976963303523, 46⟩, ⟨8, true, 6517239977158715, 47⟩, ⟨10, true, 6978132320925191, 53⟩],
  [⟨11, true, 644211533725315, 50⟩, ⟨13, true, 8224054912802483, 48⟩, ⟨15, true, 3821613890387643, 45⟩,
    ⟨17, true, 3784537310686631, 49⟩, ⟨19, false, 5149980224024085, 44⟩, ⟨21, false, 8744123398119403, 45⟩],
  [⟨0, false, 5746010103442607, 47⟩, ⟨2, true, 6625412089952853, 46⟩, ⟨4, true, 3800806798658843, 44⟩,
    ⟨6, false, 1555544609365501, 47⟩, ⟨8, false, 1475963171297709, 44⟩, ⟨10, false, 981299857630105, 46⟩],
  [⟨11, false, 5797903803527835, 49⟩, ⟨13, false, 8224054912802483, 47⟩, ⟨15, false, 5487445586197641, 47⟩,
    ⟨17, true, 7096007457537433, 45⟩, ⟨19, true, 3010307438193595, 44⟩, ⟨21, false, 5715470805963895, 46⟩],
  [⟨0, true, 255721720116399, 43⟩, ⟨2, true, 1486853755179155, 44⟩, ⟨4, false, 5670768953605413, 45⟩,
    ⟨6, false, 361108570031277, 41⟩, ⟨8, true, 4600404689759093, 46⟩, ⟨10, true, 2834866255375859, 46⟩],
  [⟨11, true, 8374749938429095, 48⟩, ⟨13, true, 8224054912802483, 47⟩, ⟨15, false, 3527643591127055, 45⟩,
    ⟨17, false, 7096007457537433, 45⟩, ⟨19, true, 158629766683423, 41⟩, ⟨21, true, 5715470805963895, 46⟩],
  [⟨0, true, 7297967053841495, 50⟩, ⟨2, false, 866558564175793, 43⟩, ⟨4, false, 5241692366113797, 46⟩,
    ⟨6, true, 4185155734721467, 44⟩, ⟨8, true, 1993508698895607, 45⟩, ⟨10, false, 2834866255375859, 45⟩],
  [⟨11, false, 8374749938429095, 47⟩, ⟨15, true, 3527643591127055, 44⟩, ⟨19, false, 158629766683423, 40⟩],
  [⟨0, false, 905398614038841, 46⟩, ⟨2, false, 430188110039707, 45⟩, ⟨4, true, 6392661320398741, 45⟩,
    ⟨6, true, 1083325710093831, 45⟩, ⟨8, false, 1444814597877465, 42⟩, ⟨10, true, 4715690982500227, 45⟩],
  [⟨11, true, 870692151050621, 43⟩, ⟨13, false, 321252145031347, 41⟩, ⟨15, false, 6803312640030749, 46⟩,
    ⟨17, true, 3193203355891845, 44⟩, ⟨19, true, 3644826504927287, 47⟩, ⟨21, false, 2256106897091011, 46⟩],
  [⟨12, false, 6978132320925191, 52⟩, ⟨14, false, 613387291967879, 49⟩, ⟨16, true, 1305546368574617, 44⟩,
    ⟨18, true, 8796070043578131, 45⟩, ⟨20, true, 4506413650918943, 44⟩, ⟨22, true, 4730851822153381, 46⟩],
  [⟨1, false, 3433936228799343, 44⟩, ⟨3, false, 432009257561541, 40⟩, ⟨5, false, 1155694781827003, 42⟩,
    ⟨7, false, 7096546171624017, 47⟩, ⟨9, true, 4617013284380341, 51⟩],
  [⟨12, true, 6978132320925191, 53⟩, ⟨14, false, 6517239977158715, 47⟩, ⟨16, false, 8472162604579961, 45⟩,
    ⟨18, false, 5440285246135255, 44⟩, ⟨20, false, 1404937695902133, 45⟩, ⟨22, true, 7454572879257423, 47⟩],
  [⟨1, false, 8718335892384445, 46⟩, ⟨3, true, 4046135485454433, 45⟩, ⟨5, true, 3377865538266357, 43⟩,
    ⟨7, true, 7096546171624017, 45⟩, ⟨9, true, 5771266605475427, 48⟩],
  [⟨12, true, 7414265590983015, 49⟩, ⟨14, true, 5271297040348961, 45⟩, ⟨16, true, 6023105764239633, 44⟩,
    ⟨18, true, 2259899999660235, 44⟩, ⟨20, false, 8777898226175483, 46⟩, ⟨22, false, 8210484114490151, 48⟩],
  [⟨1, true, 5541315185837571, 46⟩, ⟨3, true, 5732025271060447, 45⟩, ⟨5, false, 7818057339181593, 45⟩,
    ⟨7, false, 6209477900171015, 44⟩, ⟨9, false, 6492674931159855, 46⟩],
  [⟨12, false, 7523298908497471, 47⟩, ⟨14, false, 4782504042062057, 44⟩, ⟨16, false, 2363409294884191, 43⟩,
    ⟨18, true, 1885907568670921, 44⟩, ⟨20, true, 3896422366742879, 45⟩, ⟨22, false, 3594205385389981, 49⟩],
  [⟨1, true, 812726227256177, 46⟩, ⟨3, false, 5732025271060447, 45⟩, ⟨5, false, 7137504577172155, 46⟩,
    ⟨7, true, 6209477900171015, 44⟩, ⟨9, true, 4148097872685463, 44⟩],
  [⟨12, true, 4715690982500227, 45⟩, ⟨14, true, 1444814597877465, 42⟩, ⟨16, true, 1083325710093831, 45⟩,
    ⟨18, false, 6392661320398741, 45⟩, ⟨20, false, 430188110039707, 45⟩, ⟨22, true, 905398614038841, 46⟩],
  [⟨1, false, 812726227256177, 45⟩, ⟨5, true, 7137504577172155, 45⟩, ⟨9, false, 4148097872685463, 43⟩],
  [⟨12, false, 4715690982500227, 44⟩, ⟨14, false, 1658062523600673, 43⟩, ⟨16, true, 1449063877176791, 43⟩,
    ⟨18, true, 7259511993777073, 47⟩, ⟨20, false, 8712983613163503, 48⟩, ⟨22, false, 4586177869150095, 51⟩],
  [⟨0, true, 5463984028234701, 47⟩, ⟨2, true, 3088596071482687, 44⟩, ⟨4, true, 3580470172649635, 44⟩,
    ⟨6, true, 1305546368574617, 44⟩, ⟨8, true, 613387291967879, 49⟩, ⟨10, false, 6978132320925191, 52⟩],
  [⟨11, false, 644211533725315, 49⟩, ⟨15, true, 7951196665714949, 47⟩, ⟨17, true, 3784537310686631, 44⟩,
    ⟨19, true, 4808776574931439, 44⟩, ⟨21, true, 2078353020350507, 44⟩],
  [⟨0, true, 7401150632319003, 47⟩, ⟨2, true, 1607924660399911, 45⟩, ⟨4, false, 6073753045911729, 45⟩,
    ⟨6, false, 1719895304700249, 43⟩, ⟨8, false, 6670586800150685, 47⟩, ⟨10, true, 6978132320925191, 53⟩],
  [⟨11, true, 644211533725315, 50⟩, ⟨13, false, 8224054912802483, 48⟩, ⟨15, false, 1452353264204095, 43⟩,
    ⟨17, false, 975701025411397, 42⟩, ⟨19, true, 5459258385482331, 48⟩, ⟨21, true, 4587417357418389, 45⟩],
  [⟨0, false, 6620562115505583, 49⟩, ⟨2, false, 4920630705376337, 45⟩, ⟨4, false, 3055721102811915, 46⟩,
    ⟨6, true, 7268467371142371, 45⟩, ⟨8, true, 4619573042633089, 45⟩, ⟨10, true, 7414265590983015, 49⟩],
  [⟨11, true, 5475798036665177, 49⟩, ⟨13, true, 3084020592300931, 45⟩, ⟨15, true, 3590637226682895, 44⟩,
    ⟨17, true, 2838402983014973, 47⟩, ⟨19, false, 3351511087286241, 44⟩, ⟨21, false, 6918727817745767, 47⟩],
  [⟨0, false, 609101748246497, 45⟩, ⟨2, true, 7787692780072109, 47⟩, ⟨4, true, 7198629505011371, 45⟩,
    ⟨6, false, 2981460501283877, 46⟩, ⟨8, false, 1729943846878159, 43⟩, ⟨10, false, 7523298908497471, 47⟩],
  [⟨11, false, 2778162239190421, 46⟩, ⟨13, false, 321252145031347, 41⟩, ⟨15, false, 7307261724477471, 46⟩,
    ⟨17, true, 3193203355891845, 44⟩, ⟨19, true, 2082472953818857, 44⟩, ⟨21, false, 2256106897091011, 46⟩],
  [⟨0, true, 6096644445023205, 49⟩, ⟨2, true, 1519311061685145, 45⟩, ⟨4, false, 572222915244309, 42⟩,
    ⟨6, false, 1719895304700249, 43⟩, ⟨8, true, 4926266688617029, 45⟩, ⟨10, true, 4715690982500227, 45⟩],
  [⟨11, true, 870692151050621, 43⟩, ⟨13, true, 321252145031347, 41⟩, ⟨15, false, 6803312640030749, 46⟩,
    ⟨17, false, 3193203355891845, 44⟩, ⟨19, true, 3644826504927287, 47⟩, ⟨21, true, 2256106897091011, 46⟩],
  [⟨0, true, 4586177869150095, 51⟩, ⟨2, false, 8712983613163503, 48⟩, ⟨4, false, 7259511993777073, 47⟩,
    ⟨6, true, 1449063877176791, 43⟩, ⟨8, true, 1658062523600673, 43⟩, ⟨10, false, 4715690982500227, 44⟩],
  [⟨11, false, 870692151050621, 42⟩, ⟨15, true, 6803312640030749, 45⟩, ⟨19, false, 3644826504927287, 46⟩]]

/-- The array `s2t12`: so3/_tensor_conversion_lut.npz. -/
def shippedS2t12 : List (List ShippedEntry) := [
  [⟨1, false, 991514036362323, 60⟩, ⟨6, true, 991514036362323, 60⟩, ⟨15, false, 991514036362323, 60⟩,
    ⟨28, true, 991514036362323, 60⟩, ⟨45, false, 991514036362323, 60⟩, ⟨66, true, 991514036362323, 60⟩],
  [⟨4, false, 3238271282526743, 63⟩, ⟨11, true, 3238271282526743, 63⟩, ⟨22, false, 3238271282526743, 63⟩,
    ⟨37, true, 3238271282526743, 63⟩, ⟨56, false, 3238271282526743, 63⟩, ⟨79, true, 3238271282526743, 63⟩],
  [⟨1, true, 2387285262279853, 62⟩, ⟨6, false, 5729484629471647, 64⟩, ⟨8, false, 7639312839295529, 65⟩,
    ⟨15, true, 7639312839295529, 66⟩, ⟨17, true, 7639312839295529, 65⟩, ⟨28, true, 7639312839295529, 66⟩,
    ⟨30, false, 7639312839295529, 65⟩, ⟨45, false, 5729484629471647, 64⟩, ⟨47, true, 7639312839295529, 65⟩,
    ⟨66, true, 2387285262279853, 62⟩, ⟨68, false, 7639312839295529, 65⟩],
  [⟨4, true, 6347257250263513, 64⟩, ⟨11, false, 1763127013962087, 63⟩, ⟨13, false, 2821003222339339, 64⟩,
    ⟨22, true, 2821003222339339, 66⟩, ⟨24, true, 2821003222339339, 64⟩, ⟨37, true, 8463009667018017, 66⟩,
    ⟨39, false, 2821003222339339, 64⟩, ⟨56, false, 4936755639093843, 64⟩, ⟨58, true, 2821003222339339, 64⟩,
    ⟨79, true, 3878879430716591, 63⟩, ⟨81, false, 2821003222339339, 64⟩],
  [⟨1, false, 3385763543403047, 63⟩, ⟨6, true, 230847514322935, 61⟩, ⟨8, true, 2462373486111307, 63⟩,
    ⟨15, true, 2462373486111307, 66⟩, ⟨17, false, 2462373486111307, 64⟩, ⟨19, false, 2462373486111307, 64⟩,
    ⟨28, false, 2462373486111307, 66⟩, ⟨32, true, 2462373486111307, 64⟩, ⟨45, false, 230847514322935, 61⟩,
    ⟨47, true, 2462373486111307, 64⟩, ⟨49, false, 2462373486111307, 64⟩, ⟨66, true, 3385763543403047, 63⟩,
    ⟨68, false, 2462373486111307, 63⟩, ⟨70, true, 2462373486111307, 64⟩],
  [⟨4, false, 1346610500217121, 62⟩, ⟨11, true, 4309153600694787, 66⟩, ⟨13, true, 4309153600694787, 64⟩,
    ⟨22, true, 6155933715278267, 67⟩, ⟨24, false, 230847514322935, 61⟩, ⟨26, false, 2462373486111307, 64⟩,
    ⟨37, false, 2462373486111307, 68⟩, ⟨39, false, 2462373486111307, 66⟩, ⟨41, true, 2462373486111307, 64⟩,
    ⟨56, false, 2924068514757177, 64⟩, ⟨58, true, 6155933715278267, 65⟩, ⟨60, false, 2462373486111307, 64⟩,
    ⟨79, true, 8464408858507617, 64⟩, ⟨81, false, 692542542968805, 61⟩, ⟨83, true, 2462373486111307, 64⟩],
  [⟨1, true, 2378293572091391, 63⟩, ⟨6, false, 691867220972041, 67⟩, ⟨8, false, 4670103741561277, 64⟩,
    ⟨15, false, 3459336104860205, 67⟩, ⟨17, true, 2075601662916123, 66⟩, ⟨19, true, 2075601662916123, 63⟩,
    ⟨28, false, 3459336104860205, 67⟩, ⟨30, true, 3459336104860205, 66⟩, ⟨32, false, 691867220972041, 63⟩,
    ⟨34, false, 691867220972041, 62⟩, ⟨45, false, 691867220972041, 67⟩, ⟨47, true, 2075601662916123, 66⟩,
    ⟨49, false, 691867220972041, 63⟩, ⟨51, true, 691867220972041, 62⟩, ⟨66, true, 2378293572091391, 63⟩,
    ⟨68, false, 4670103741561277, 64⟩, ⟨70, true, 2075601662916123, 63⟩, ⟨72, false, 691867220972041, 62⟩],
  [⟨4, true, 8089781556302487, 65⟩, ⟨11, true, 8629100326722653, 69⟩, ⟨13, false, 8629100326722653, 65⟩,
    ⟨22, false, 8629100326722653, 69⟩, ⟨26, true, 8629100326722653, 65⟩, ⟨37, false, 4746005179697459, 67⟩,
    ⟨39, true, 6903280261378123, 67⟩, ⟨41, false, 6903280261378123, 67⟩, ⟨43, false, 6903280261378123, 65⟩,
    ⟨56, false, 4530277671529393, 66⟩, ⟨58, true, 6903280261378123, 66⟩, ⟨60, false, 647182524504199, 62⟩,
    ⟨62, true, 6903280261378123, 65⟩, ⟨79, true, 139043120498949, 58⟩, ⟨81, false, 1941547573512597, 62⟩,
    ⟨83, true, 6040370228705857, 64⟩, ⟨85, false, 6903280261378123, 65⟩],
  [⟨1, false, 6104498800478495, 65⟩, ⟨6, false, 7991343884262757, 68⟩, ⟨8, true, 1775854196502835, 63⟩,
    ⟨15, false, 5919513988342783, 70⟩, ⟨17, true, 2367805595337113, 66⟩, ⟨19, false, 1035914947959987, 62⟩,
    ⟨28, true, 5919513988342783, 70⟩, ⟨32, false, 2367805595337113, 66⟩, ⟨34, true, 2367805595337113, 63⟩,
    ⟨45, true, 7991343884262757, 68⟩, ⟨47, false, 2367805595337113, 66⟩, ⟨49, true, 2367805595337113, 66⟩,
    ⟨53, false, 2367805595337113, 63⟩, ⟨66, true, 6104498800478495, 65⟩, ⟨68, false, 1775854196502835, 63⟩,
    ⟨70, true, 1035914947959987, 62⟩, ⟨72, false, 2367805595337113, 63⟩, ⟨74, true, 2367805595337113, 63⟩],
  [⟨4, false, 4994589927664223, 65⟩, ⟨11, false, 1220899760095699, 65⟩, ⟨13, true, 3107744843879961, 64⟩,
    ⟨22, false, 8879270982514175, 69⟩, ⟨24, true, 1775854196502835, 65⟩, ⟨26, false, 7991343884262757, 65⟩,
    ⟨37, false, 5327562589508505, 69⟩, ⟨39, true, 1775854196502835, 66⟩, ⟨41, false, 5327562589508505, 66⟩,
    ⟨43, true, 5327562589508505, 64⟩, ⟨56, true, 5327562589508505, 69⟩, ⟨60, false, 1775854196502835, 66⟩,
    ⟨62, true, 1775854196502835, 64⟩, ⟨64, false, 1775854196502835, 62⟩, ⟨79, true, 4578374100358871, 63⟩,
    ⟨81, false, 2330808632909971, 62⟩, ⟨83, true, 2330808632909971, 62⟩, ⟨85, false, 8879270982514175, 64⟩,
    ⟨87, true, 1775854196502835, 62⟩],
  [⟨1, true, 5981162878641715, 66⟩, ⟨6, true, 6524904958518235, 68⟩, ⟨8, false, 3806194559135637, 65⟩,
    ⟨15, true, 3624947199176797, 68⟩, ⟨17, false, 1268731519711879, 65⟩, ⟨19, true, 1268731519711879, 63⟩,
    ⟨28, true, 3624947199176797, 68⟩, ⟨30, false, 3624947199176797, 67⟩, ⟨32, true, 8699873278024313, 67⟩,
    ⟨34, false, 3624947199176797, 64⟩, ⟨45, true, 6524904958518235, 68⟩, ⟨47, false, 1268731519711879, 65⟩,
    ⟨49, true, 8699873278024313, 67⟩, ⟨51, false, 8699873278024313, 66⟩, ⟨53, true, 5799915518682875, 64⟩,
    ⟨66, true, 5981162878641715, 66⟩, ⟨68, false, 3806194559135637, 65⟩, ⟨70, true, 1268731519711879, 63⟩,
    ⟨72, false, 3624947199176797, 64⟩, ⟨74, true, 5799915518682875, 64⟩, ⟨76, false, 5799915518682875, 63⟩],
  [⟨4, true, 1686915439714975, 65⟩, ⟨11, true, 4498441172573267, 68⟩, ⟨13, false, 4498441172573267, 66⟩,
    ⟨22, true, 1606586133061881, 67⟩, ⟨24, false, 7711613438697029, 68⟩, ⟨26, true, 1606586133061881, 64⟩,
    ⟨37, true, 4498441172573267, 68⟩, ⟨39, false, 7711613438697029, 68⟩, ⟨41, true, 7711613438697029, 67⟩,
    ⟨43, false, 5141075625798019, 65⟩, ⟨56, true, 1686915439714975, 65⟩, ⟨58, false, 4498441172573267, 66⟩,
    ⟨60, true, 1606586133061881, 64⟩, ⟨62, false, 5141075625798019, 65⟩, ⟨64, true, 5141075625798019, 64⟩,
    ⟨79, true, 4639017459216181, 63⟩, ⟨81, false, 5060746319144925, 63⟩, ⟨83, true, 5623051465716583, 63⟩,
    ⟨85, false, 1606586133061881, 61⟩, ⟨87, true, 7711613438697029, 63⟩, ⟨89, false, 5141075625798019, 62⟩],
  [⟨0, false, 6303183516079555, 64⟩, ⟨3, false, 4584133466239677, 67⟩, ⟨5, true, 6876200199359515, 64⟩,
    ⟨10, false, 6112177954986235, 69⟩, ⟨12, true, 6112177954986235, 67⟩, ⟨14, false, 3820111221866397, 63⟩,
    ⟨21, false, 8731682792837479, 70⟩, ⟨23, true, 5239009675702487, 68⟩, ⟨25, false, 8731682792837479, 67⟩,
    ⟨27, true, 8731682792837479, 64⟩, ⟨36, false, 6112177954986235, 69⟩, ⟨38, true, 5239009675702487, 68⟩,
    ⟨40, false, 5239009675702487, 67⟩, ⟨42, true, 6985346234269983, 66⟩, ⟨44, false, 5239009675702487, 63⟩,
    ⟨55, false, 4584133466239677, 67⟩, ⟨57, true, 6112177954986235, 67⟩, ⟨59, false, 8731682792837479, 67⟩,
    ⟨61, true, 6985346234269983, 66⟩, ⟨63, false, 6985346234269983, 65⟩, ⟨65, true, 6985346234269983, 63⟩,
    ⟨78, false, 6303183516079555, 64⟩, ⟨80, true, 6876200199359515, 64⟩, ⟨82, false, 3820111221866397, 63⟩,
    ⟨84, true, 8731682792837479, 64⟩, ⟨86, false, 5239009675702487, 63⟩, ⟨88, true, 6985346234269983, 63⟩,
    ⟨90, false, 6985346234269983, 62⟩],
  [⟨2, true, 4639017459216181, 63⟩, ⟨7, true, 1686915439714975, 65⟩, ⟨9, false, 5060746319144925, 63⟩,
    ⟨16, true, 4498441172573267, 68⟩, ⟨18, false, 4498441172573267, 66⟩, ⟨20, true, 5623051465716583, 63⟩,
    ⟨29, true, 1606586133061881, 67⟩, ⟨31, false, 7711613438697029, 68⟩, ⟨33, true, 1606586133061881, 64⟩,
    ⟨35, false, 1606586133061881, 61⟩, ⟨46, true, 4498441172573267, 68⟩, ⟨48, false, 7711613438697029, 68⟩,
    ⟨50, true, 7711613438697029, 67⟩, ⟨52, false, 5141075625798019, 65⟩, ⟨54, true, 7711613438697029, 63⟩,
    ⟨67, true, 1686915439714975, 65⟩, ⟨69, false, 4498441172573267, 66⟩, ⟨71, true, 1606586133061881, 64⟩,
    ⟨73, false, 5141075625798019, 65⟩, ⟨75, true, 5141075625798019, 64⟩, ⟨77, false, 5141075625798019, 62⟩],
  [⟨0, true, 8971744317962573, 64⟩, ⟨3, true, 8699873278024313, 68⟩, ⟨5, false, 2378871599459773, 62⟩,
    ⟨10, true, 5799915518682875, 70⟩, ⟨12, false, 1268731519711879, 65⟩, ⟨14, true, 1268731519711879, 61⟩,
    ⟨23, false, 5799915518682875, 70⟩, ⟨25, true, 5799915518682875, 67⟩, ⟨27, false, 1359355199691299, 61⟩,
    ⟨36, false, 5799915518682875, 70⟩, ⟨38, true, 5799915518682875, 70⟩, ⟨42, false, 5799915518682875, 67⟩,
    ⟨44, true, 5799915518682875, 63⟩, ⟨55, false, 8699873278024313, 68⟩, ⟨57, true, 1268731519711879, 65⟩,
    ⟨59, false, 5799915518682875, 67⟩, ⟨61, true, 5799915518682875, 67⟩, ⟨65, false, 5799915518682875, 63⟩,
    ⟨78, false, 8971744317962573, 64⟩, ⟨80, true, 2378871599459773, 62⟩, ⟨82, false, 1268731519711879, 61⟩,
    ⟨84, true, 1359355199691299, 61⟩, ⟨86, false, 5799915518682875, 63⟩, ⟨88, true, 5799915518682875, 63⟩],
  [⟨2, false, 4578374100358871, 63⟩, ⟨7, false, 5327562589508505, 69⟩, ⟨9, true, 2330808632909971, 62⟩,
    ⟨16, true, 5327562589508505, 69⟩, ⟨20, false, 2330808632909971, 62⟩, ⟨29, true, 8879270982514175, 69⟩,
    ⟨31, false, 1775854196502835, 66⟩, ⟨33, true, 1775854196502835, 66⟩, ⟨35, true, 8879270982514175, 64⟩,
    ⟨46, true, 1220899760095699, 65⟩, ⟨48, false, 1775854196502835, 65⟩, ⟨50, true, 5327562589508505, 66⟩,
    ⟨52, false, 1775854196502835, 64⟩, ⟨54, false, 1775854196502835, 62⟩, ⟨67, true, 4994589927664223, 65⟩,
    ⟨69, false, 3107744843879961, 64⟩, ⟨71, true, 7991343884262757, 65⟩, ⟨73, false, 5327562589508505, 64⟩,
    ⟨75, true, 1775854196502835, 62⟩],
  [⟨0, false, 4578374100358871, 63⟩, ⟨3, true, 8879270982514175, 69⟩, ⟨5, true, 8879270982514175, 64⟩,
    ⟨10, true, 2515793445045683, 67⟩, ⟨12, false, 2367805595337113, 66⟩, ⟨14, false, 1035914947959987, 61⟩,
    ⟨21, true, 8879270982514175, 69⟩, ⟨23, false, 2367805595337113, 66⟩, ⟨25, true, 2367805595337113, 65⟩,
    ⟨27, true, 1775854196502835, 62⟩, ⟨36, true, 2515793445045683, 67⟩, ⟨38, false, 2367805595337113, 66⟩,
    ⟨40, true, 2367805595337113, 65⟩, ⟨42, false, 2367805595337113, 64⟩, ⟨44, false, 2367805595337113, 63⟩,
    ⟨55, true, 8879270982514175, 69⟩, ⟨57, false, 2367805595337113, 66⟩, ⟨59, true, 2367805595337113, 65⟩,
    ⟨61, false, 2367805595337113, 64⟩, ⟨63, true, 2367805595337113, 63⟩, ⟨78, false, 4578374100358871, 63⟩,
    ⟨80, true, 8879270982514175, 64⟩, ⟨82, false, 1035914947959987, 61⟩, ⟨84, true, 1775854196502835, 62⟩,
    ⟨86, false, 2367805595337113, 63⟩],
  [⟨2, true, 139043120498949, 58⟩, ⟨7, false, 4530277671529393, 66⟩, ⟨9, false, 1941547573512597, 62⟩,
    ⟨16, false, 4746005179697459, 67⟩, ⟨18, true, 6903280261378123, 66⟩, ⟨20, true, 6040370228705857, 64⟩,
    ⟨29, false, 8629100326722653, 69⟩, ⟨31, true, 6903280261378123, 67⟩, ⟨33, false, 647182524504199, 62⟩,
    ⟨35, false, 6903280261378123, 65⟩, ⟨46, true, 8629100326722653, 69⟩, ⟨50, false, 6903280261378123, 67⟩,
    ⟨52, true, 6903280261378123, 65⟩, ⟨67, true, 8089781556302487, 65⟩, ⟨69, false, 8629100326722653, 65⟩,
    ⟨71, true, 8629100326722653, 65⟩, ⟨73, false, 6903280261378123, 65⟩],
  [⟨0, true, 2378293572091391, 62⟩, ⟨3, false, 3459336104860205, 65⟩, ⟨5, false, 7783506235935461, 64⟩,
    ⟨10, false, 2075601662916123, 66⟩, ⟨12, true, 8994273872636533, 66⟩, ⟨14, true, 691867220972041, 61⟩,
    ⟨23, true, 2075601662916123, 66⟩, ⟨25, false, 691867220972041, 62⟩, ⟨27, false, 691867220972041, 62⟩,
    ⟨36, true, 2075601662916123, 66⟩, ⟨38, false, 2075601662916123, 66⟩, ⟨42, true, 691867220972041, 62⟩,
    ⟨55, true, 3459336104860205, 65⟩, ⟨57, false, 8994273872636533, 66⟩, ⟨59, true, 691867220972041, 62⟩,
    ⟨61, false, 691867220972041, 62⟩, ⟨78, false, 2378293572091391, 62⟩, ⟨80, true, 7783506235935461, 64⟩,
    ⟨82, false, 691867220972041, 61⟩, ⟨84, true, 691867220972041, 62⟩],
  [⟨2, false, 8464408858507617, 64⟩, ⟨7, true, 2924068514757177, 64⟩, ⟨9, true, 692542542968805, 61⟩,
    ⟨16, true, 2462373486111307, 68⟩, ⟨18, false, 6155933715278267, 65⟩, ⟨20, false, 2462373486111307, 64⟩,
    ⟨29, false, 6155933715278267, 67⟩, ⟨31, true, 2462373486111307, 66⟩, ⟨33, true, 2462373486111307, 64⟩,
    ⟨46, false, 4309153600694787, 66⟩, ⟨48, true, 230847514322935, 61⟩, ⟨50, false, 2462373486111307, 64⟩,
    ⟨67, true, 1346610500217121, 62⟩, ⟨69, false, 4309153600694787, 64⟩, ⟨71, true, 2462373486111307, 64⟩],
  [⟨0, false, 2539322657552285, 62⟩, ⟨3, true, 8002713829861747, 65⟩, ⟨5, true, 6155933715278267, 64⟩,
    ⟨10, false, 2462373486111307, 67⟩, ⟨12, false, 230847514322935, 60⟩, ⟨14, false, 2462373486111307, 64⟩,
    ⟨21, false, 230847514322935, 62⟩, ⟨23, true, 2462373486111307, 65⟩, ⟨25, true, 2462373486111307, 64⟩,
    ⟨36, false, 2462373486111307, 67⟩, ⟨38, true, 2462373486111307, 65⟩, ⟨40, false, 2462373486111307, 64⟩,
    ⟨55, true, 8002713829861747, 65⟩, ⟨57, false, 230847514322935, 60⟩, ⟨59, true, 2462373486111307, 64⟩,
    ⟨78, false, 2539322657552285, 62⟩, ⟨80, true, 6155933715278267, 64⟩, ⟨82, false, 2462373486111307, 64⟩],
  [⟨2, true, 3878879430716591, 63⟩, ⟨7, false, 4936755639093843, 64⟩, ⟨9, false, 2821003222339339, 64⟩,
    ⟨16, true, 8463009667018017, 66⟩, ⟨18, true, 2821003222339339, 64⟩, ⟨29, true, 2821003222339339, 66⟩,
    ⟨31, false, 2821003222339339, 64⟩, ⟨46, false, 1763127013962087, 63⟩, ⟨48, true, 2821003222339339, 64⟩,
    ⟨67, true, 6347257250263513, 64⟩, ⟨69, false, 2821003222339339, 64⟩],
  [⟨0, true, 5729484629471647, 63⟩, ⟨3, false, 7639312839295529, 64⟩, ⟨5, false, 7639312839295529, 65⟩,
    ⟨10, true, 7639312839295529, 65⟩, ⟨12, true, 7639312839295529, 65⟩, ⟨23, false, 7639312839295529, 65⟩,
    ⟨36, false, 7639312839295529, 65⟩, ⟨38, true, 7639312839295529, 65⟩, ⟨55, true, 7639312839295529, 64⟩,
    ⟨57, false, 7639312839295529, 65⟩, ⟨78, false, 5729484629471647, 63⟩, ⟨80, true, 7639312839295529, 65⟩],
  [⟨2, false, 3238271282526743, 63⟩, ⟨7, true, 3238271282526743, 63⟩, ⟨16, false, 3238271282526743, 63⟩,
    ⟨29, true, 3238271282526743, 63⟩, ⟨46, false, 3238271282526743, 63⟩, ⟨67, true, 3238271282526743, 63⟩],
  [⟨0, false, 991514036362323, 60⟩, ⟨3, true, 991514036362323, 60⟩, ⟨10, false, 991514036362323, 60⟩,
    ⟨21, true, 991514036362323, 60⟩, ⟨36, false, 991514036362323, 60⟩, ⟨55, true, 991514036362323, 60⟩,
    ⟨78, false, 991514036362323, 60⟩]]

/-- The array `t2s12`: so3/_tensor_conversion_lut.npz. -/
def shippedT2s12 : List (List ShippedEntry) := [
  [⟨12, true, 4858253211307577, 53⟩, ⟨14, false, 3730152650362775, 49⟩, ⟨16, false, 3650309355247289, 48⟩,
    ⟨18, true, 3389600691195333, 44⟩, ⟨20, false, 7347796627297215, 44⟩, ⟨22, true, 1354812819011065, 42⟩,
    ⟨24, false, 8255555379409925, 47⟩],
  [⟨0, false, 3652856868353427, 45⟩, ⟨2, true, 2031773029548807, 42⟩, ⟨4, false, 4706819826608509, 43⟩,
    ⟨6, true, 3433123444076803, 44⟩, ⟨10, false, 5948416186625023, 50⟩],
  [⟨13, false, 838839813483477, 48⟩, ⟨15, false, 2428430739157237, 50⟩, ⟨17, true, 1376311252953939, 43⟩,
    ⟨19, false, 8449015241077775, 44⟩, ⟨21, true, 4474955081569239, 43⟩, ⟨23, false, 6551086711371299, 45⟩],
  [⟨12, true, 5586991193003713, 51⟩, ⟨14, true, 3108460541968979, 48⟩, ⟨16, false, 2420009538045461, 44⟩,
    ⟨18, true, 4122487327129459, 44⟩, ⟨20, true, 4885296358636669, 45⟩, ⟨22, false, 3852291616869941, 43⟩,
    ⟨24, true, 676277992958639, 42⟩],
  [⟨1, false, 5672092075201151, 44⟩, ⟨3, true, 816147458267017, 40⟩, ⟨5, false, 5189132032678131, 43⟩,
    ⟨7, true, 1376311252953939, 43⟩, ⟨9, true, 2428430739157237, 50⟩, ⟨11, false, 838839813483477, 48⟩],
  [⟨12, false, 425097155989413, 47⟩, ⟨14, false, 2486768433575183, 49⟩, ⟨16, true, 5296307745496833, 45⟩,
    ⟨18, false, 939011002290599, 41⟩, ⟨20, true, 38321472249835, 37⟩, ⟨22, true, 2285331957695623, 44⟩,
    ⟨24, false, 6692670197633263, 46⟩],
  [⟨0, true, 7288590970136447, 45⟩, ⟨2, false, 8235695913289819, 44⟩, ⟨4, false, 4706819826608509, 47⟩,
    ⟨6, true, 3329642772890091, 43⟩, ⟨8, false, 4894805708613805, 45⟩, ⟨10, true, 5948416186625023, 51⟩],
  [⟨13, true, 838839813483477, 49⟩, ⟨15, false, 3225259575443205, 45⟩, ⟨17, true, 2249927261034631, 43⟩,
    ⟨19, true, 1282745228908569, 44⟩, ⟨21, false, 2819893504486771, 42⟩, ⟨23, true, 7712377294593317, 44⟩],
  [⟨0, false, 908933525445755, 43⟩, ⟨2, true, 3475321443026911, 49⟩, ⟨4, true, 5000996065771541, 43⟩,
    ⟨6, false, 5046204494928493, 43⟩, ⟨8, true, 4894805708613805, 45⟩, ⟨10, true, 5948416186625023, 51⟩],
  [⟨13, true, 838839813483477, 49⟩, ⟨15, true, 6602296072083737, 46⟩, ⟨17, false, 1813119256994285, 42⟩,
    ⟨19, true, 3583135006084603, 43⟩, ⟨21, true, 4659327709617213, 45⟩, ⟨23, false, 8873667877815335, 45⟩],
  [⟨12, false, 5344078532438335, 50⟩, ⟨14, true, 3419306596165877, 46⟩, ⟨16, false, 5867368411501777, 47⟩,
    ⟨18, false, 2656714055261207, 43⟩, ⟨20, true, 5354680504948271, 44⟩, ⟨22, true, 5393899671027467, 44⟩,
    ⟨24, false, 517721792372493, 41⟩],
  [⟨1, true, 2535237881524501, 42⟩, ⟨3, false, 5511397972438111, 43⟩, ⟨5, false, 4918900371121393, 45⟩,
    ⟨7, true, 1544689757304687, 42⟩, ⟨9, false, 6602296072083737, 46⟩, ⟨11, true, 838839813483477, 49⟩],
  [⟨12, true, 1275291467968239, 49⟩, ⟨14, false, 8392843463316243, 47⟩, ⟨16, true, 3153430589483183, 44⟩,
    ⟨18, true, 4763763133571819, 46⟩, ⟨20, false, 3898664342133303, 43⟩, ⟨22, true, 72208861334763, 39⟩,
    ⟨24, true, 5746649468581551, 46⟩],
  [⟨1, false, 8937718901793703, 45⟩, ⟨3, false, 8142253549584197, 46⟩, ⟨5, true, 6418857125458479, 43⟩,
    ⟨7, false, 4465690767563313, 43⟩, ⟨9, true, 3225259575443205, 45⟩, ⟨11, true, 838839813483477, 49⟩],
  [⟨12, true, 425097155989413, 49⟩, ⟨14, true, 1126816946463755, 44⟩, ⟨16, false, 362599028889475, 40⟩,
    ⟨18, true, 6321147234931837, 44⟩, ⟨20, true, 5784360472575451, 45⟩, ⟨22, false, 4596015520408039, 44⟩,
    ⟨24, true, 7568165832413693, 49⟩],
  [⟨0, false, 2378637656072329, 43⟩, ⟨2, true, 6726819836264969, 45⟩, ⟨4, true, 8825287174890955, 44⟩,
    ⟨6, false, 1013501867799269, 42⟩, ⟨8, false, 4894805708613805, 45⟩, ⟨10, true, 6320192198289087, 47⟩],
  [⟨13, true, 3565069207304777, 47⟩, ⟨15, false, 327268986331737, 42⟩, ⟨17, false, 8179778935995751, 45⟩,
    ⟨19, true, 3843104705810073, 43⟩, ⟨21, true, 3239957052802549, 43⟩, ⟨23, false, 5578494671506873, 43⟩],
  [⟨0, true, 4451919308305739, 46⟩, ⟨2, true, 4872285995157335, 44⟩, ⟨4, false, 8236934696564891, 44⟩,
    ⟨6, false, 1302639037291553, 43⟩, ⟨8, true, 4894805708613805, 44⟩, ⟨10, false, 6691968209953151, 47⟩],
  [⟨13, false, 7549558321351293, 48⟩, ⟨15, true, 5843411466097101, 45⟩, ⟨17, false, 3279720432571089, 47⟩,
    ⟨19, false, 8968954640528715, 44⟩, ⟨21, true, 2399829956170993, 43⟩, ⟨23, true, 3444612048420429, 44⟩],
  [⟨0, true, 5639097790520603, 47⟩, ⟨2, false, 2490444895125963, 43⟩, ⟨4, false, 1765057434978191, 44⟩,
    ⟨6, true, 3174421766110023, 42⟩, ⟨8, false, 1835552140730177, 42⟩, ⟨10, true, 6320192198289087, 47⟩],
  [⟨13, true, 3565069207304777, 47⟩, ⟨15, false, 4572279751069485, 44⟩, ⟨17, true, 3831221041024263, 43⟩,
    ⟨19, true, 1802684628359509, 44⟩, ⟨21, false, 7129323767150593, 44⟩, ⟨23, true, 3968887561948953, 46⟩],
  [⟨12, false, 941286559690843, 46⟩, ⟨16, true, 5833776607619133, 45⟩, ⟨20, false, 2217882150833639, 42⟩,
    ⟨24, true, 4698336996297709, 44⟩],
  [⟨1, false, 6074402409187109, 43⟩, ⟨3, true, 2628243009542167, 44⟩, ⟨5, true, 2491091234540441, 42⟩,
    ⟨7, false, 1205492480424195, 43⟩, ⟨9, false, 1954127860415589, 44⟩, ⟨11, true, 3565069207304777, 47⟩],
  [⟨12, true, 1275291467968239, 46⟩, ⟨14, false, 3419306596165877, 46⟩, ⟨16, false, 4366934504743689, 45⟩,
    ⟨18, true, 2656714055261207, 43⟩, ⟨20, true, 7033696196772569, 45⟩, ⟨22, false, 5393899671027467, 44⟩,
    ⟨24, false, 4452501258542119, 47⟩],
  [⟨1, true, 2007853292276215, 44⟩, ⟨3, true, 1049319116916757, 41⟩, ⟨5, false, 1876228688150267, 42⟩,
    ⟨7, false, 1883887034185179, 43⟩, ⟨9, true, 7209403756873047, 45⟩, ⟨11, false, 7549558321351293, 48⟩],
  [⟨12, false, 5738811605857075, 48⟩, ⟨14, true, 3807864163911999, 45⟩, ⟨16, false, 7759706696890709, 47⟩,
    ⟨18, false, 6504368893915369, 44⟩, ⟨20, true, 4280480585880321, 44⟩, ⟨22, true, 3083216108315051, 44⟩,
    ⟨24, false, 7040797678620983, 47⟩],
  [⟨1, true, 4922012317241273, 45⟩, ⟨3, false, 3179494773969003, 43⟩, ⟨5, false, 5332799498315891, 44⟩,
    ⟨7, true, 1587394450437123, 41⟩, ⟨9, false, 2608665833079063, 43⟩, ⟨11, true, 3565069207304777, 47⟩],
  [⟨12, true, 5526263027862369, 48⟩, ⟨14, false, 6061498056839509, 45⟩, ⟨16, true, 3385773899671469, 43⟩,
    ⟨18, true, 366443317967063, 45⟩, ⟨20, false, 7172660822168047, 44⟩, ⟨22, true, 378199853023247, 42⟩,
    ⟨24, true, 643594527564695, 44⟩],
  [⟨0, true, 2378637656072329, 43⟩, ⟨2, true, 6726819836264969, 45⟩, ⟨4, false, 8825287174890955, 44⟩,
    ⟨6, false, 1013501867799269, 42⟩, ⟨8, true, 4894805708613805, 45⟩, ⟨10, true, 6320192198289087, 47⟩],
  [⟨13, true, 3565069207304777, 47⟩, ⟨15, true, 1954127860415589, 44⟩, ⟨17, false, 1205492480424195, 43⟩,
    ⟨19, false, 2491091234540441, 42⟩, ⟨21, true, 2628243009542167, 44⟩, ⟨23, true, 6074402409187109, 43⟩],
  [⟨2, false, 6726819836264969, 44⟩, ⟨6, true, 1013501867799269, 41⟩, ⟨10, false, 6320192198289087, 46⟩],
  [⟨13, false, 3565069207304777, 46⟩, ⟨15, false, 645051915088641, 44⟩, ⟨17, true, 3250437214423133, 43⟩,
    ⟨19, true, 4556311053083237, 45⟩, ⟨21, false, 4554078557573633, 43⟩, ⟨23, false, 7934523802883775, 47⟩],
  [⟨0, false, 4451919308305739, 46⟩, ⟨2, true, 3709067682215269, 45⟩, ⟨4, true, 8236934696564891, 44⟩,
    ⟨6, false, 2751368433905523, 43⟩, ⟨8, false, 4894805708613805, 44⟩, ⟨10, true, 4833088151632831, 45⟩],
  [⟨13, true, 681557348455325, 43⟩, ⟨15, false, 4553307635919819, 45⟩, ⟨17, false, 6090909374774879, 44⟩,
    ⟨19, true, 836349889248387, 41⟩, ⟨21, true, 4308497202805279, 44⟩, ⟨23, false, 4905593146119915, 45⟩],
  [⟨0, true, 3264740826090875, 47⟩, ⟨2, true, 3126355949144291, 44⟩, ⟨4, false, 1617969315396675, 42⟩,
    ⟨6, false, 7194950196629045, 44⟩, ⟨8, true, 6118507135767257, 43⟩, ⟨10, false, 6413136201205103, 45⟩],
  [⟨13, false, 7234993391294989, 46⟩, ⟨15, true, 3424466784514697, 43⟩, ⟨17, false, 6286130829094587, 46⟩,
    ⟨19, false, 8493483742346605, 44⟩, ⟨21, true, 5641653128690627, 45⟩, ⟨23, true, 5842298730290877, 46⟩],
  [⟨12, false, 5344078532438335, 50⟩, ⟨14, false, 3419306596165877, 46⟩, ⟨16, false, 5867368411501777, 47⟩,
    ⟨18, true, 2656714055261207, 43⟩, ⟨20, true, 5354680504948271, 44⟩, ⟨22, false, 5393899671027467, 44⟩,
    ⟨24, false, 517721792372493, 41⟩],
  [⟨1, true, 5578494671506873, 43⟩, ⟨3, true, 3239957052802549, 43⟩, ⟨5, false, 3843104705810073, 43⟩,
    ⟨7, false, 8179778935995751, 45⟩, ⟨9, true, 327268986331737, 42⟩, ⟨11, true, 3565069207304777, 47⟩],
  [⟨12, true, 1275291467968239, 46⟩, ⟨14, true, 3419306596165877, 46⟩, ⟨16, false, 4366934504743689, 45⟩,
    ⟨18, false, 2656714055261207, 43⟩, ⟨20, true, 7033696196772569, 45⟩, ⟨22, true, 5393899671027467, 44⟩,
    ⟨24, false, 4452501258542119, 47⟩],
  [⟨1, true, 7934523802883775, 47⟩, ⟨3, false, 4554078557573633, 43⟩, ⟨5, false, 4556311053083237, 45⟩,
    ⟨7, true, 3250437214423133, 43⟩, ⟨9, true, 645051915088641, 44⟩, ⟨11, false, 3565069207304777, 46⟩],
  [⟨12, false, 1275291467968239, 45⟩, ⟨16, true, 4366934504743689, 44⟩, ⟨20, false, 7033696196772569, 44⟩,
    ⟨24, true, 4452501258542119, 46⟩],
  [⟨1, false, 2999668767636687, 44⟩, ⟨3, true, 2854416719252839, 46⟩, ⟨5, true, 4891535139571343, 43⟩,
    ⟨7, false, 5466200720951815, 45⟩, ⟨9, false, 8499507587050329, 45⟩, ⟨11, true, 681557348455325, 43⟩],
  [⟨12, true, 7970571674801493, 47⟩, ⟨14, false, 3807864163911999, 45⟩, ⟨16, false, 6793942335264701, 45⟩,
    ⟨18, true, 6504368893915369, 44⟩, ⟨20, true, 5506431221784495, 45⟩, ⟨22, false, 3083216108315051, 44⟩,
    ⟨24, false, 3728409676926509, 48⟩],
  [⟨1, true, 8618601744256807, 48⟩, ⟨3, true, 5645385368124797, 44⟩, ⟨5, false, 8900541561653591, 45⟩,
    ⟨7, false, 2491513810755269, 42⟩, ⟨9, true, 4733542729841645, 43⟩, ⟨11, false, 7234993391294989, 46⟩],
  [⟨12, false, 5366851594366339, 46⟩, ⟨14, true, 2467340555187877, 43⟩, ⟨16, false, 843644157927647, 42⟩,
    ⟨18, false, 1671897638224725, 42⟩, ⟨20, true, 4419445211275799, 44⟩, ⟨22, true, 6281666784888251, 46⟩,
    ⟨24, false, 6569102764108611, 48⟩],
  [⟨0, false, 7288590970136447, 45⟩, ⟨2, false, 8235695913289819, 44⟩, ⟨4, true, 4706819826608509, 47⟩,
    ⟨6, true, 3329642772890091, 43⟩, ⟨8, true, 4894805708613805, 45⟩, ⟨10, true, 5948416186625023, 51⟩],
  [⟨13, true, 838839813483477, 49⟩, ⟨15, true, 6602296072083737, 46⟩, ⟨17, true, 1544689757304687, 42⟩,
    ⟨19, true, 4918900371121393, 45⟩, ⟨21, false, 5511397972438111, 43⟩, ⟨23, false, 2535237881524501, 42⟩],
  [⟨0, false, 4451919308305739, 46⟩, ⟨2, true, 4872285995157335, 44⟩, ⟨4, true, 8236934696564891, 44⟩,
    ⟨6, false, 1302639037291553, 43⟩, ⟨8, false, 4894805708613805, 44⟩, ⟨10, false, 6691968209953151, 47⟩],
  [⟨13, false, 7549558321351293, 48⟩, ⟨15, false, 7209403756873047, 45⟩, ⟨17, false, 1883887034185179, 43⟩,
    ⟨19, true, 1876228688150267, 42⟩, ⟨21, true, 1049319116916757, 41⟩, ⟨23, false, 2007853292276215, 44⟩],
  [⟨0, true, 4451919308305739, 46⟩, ⟨2, true, 3709067682215269, 45⟩, ⟨4, false, 8236934696564891, 44⟩,
    ⟨6, false, 2751368433905523, 43⟩, ⟨8, true, 4894805708613805, 44⟩, ⟨10, true, 4833088151632831, 45⟩],
  [⟨13, true, 681557348455325, 43⟩, ⟨15, true, 8499507587050329, 45⟩, ⟨17, false, 5466200720951815, 45⟩,
    ⟨19, false, 4891535139571343, 43⟩, ⟨21, true, 2854416719252839, 46⟩, ⟨23, true, 2999668767636687, 44⟩],
  [⟨2, false, 3709067682215269, 44⟩, ⟨6, true, 2751368433905523, 42⟩, ⟨10, false, 4833088151632831, 44⟩],
  [⟨13, false, 681557348455325, 42⟩, ⟨15, false, 7892399902261019, 46⟩, ⟨17, true, 8824009735250787, 44⟩,
    ⟨19, true, 6184542330311181, 45⟩, ⟨21, false, 5022101382618489, 44⟩, ⟨23, false, 4374977556613837, 47⟩],
  [⟨0, false, 3264740826090875, 47⟩, ⟨2, true, 4661693864567823, 47⟩, ⟨4, true, 1617969315396675, 42⟩,
    ⟨6, false, 7621047077986095, 45⟩, ⟨8, false, 6118507135767257, 43⟩, ⟨10, true, 4019828126117691, 43⟩],
  [⟨13, true, 566872217705631, 41⟩, ⟨15, false, 4875833593464139, 44⟩, ⟨17, false, 1813119256994285, 42⟩,
    ⟨19, true, 5401212577191015, 44⟩, ⟨21, true, 8805099273092701, 46⟩, ⟨23, false, 1827404975991979, 45⟩],
  [⟨12, true, 5586991193003713, 51⟩, ⟨14, false, 3108460541968979, 48⟩, ⟨16, false, 2420009538045461, 44⟩,
    ⟨18, false, 4122487327129459, 44⟩, ⟨20, true, 4885296358636669, 45⟩, ⟨22, true, 3852291616869941, 43⟩,
    ⟨24, true, 676277992958639, 42⟩],
  [⟨1, false, 7712377294593317, 44⟩, ⟨3, false, 2819893504486771, 42⟩, ⟨5, false, 1282745228908569, 44⟩,
    ⟨7, true, 2249927261034631, 43⟩, ⟨9, true, 3225259575443205, 45⟩, ⟨11, true, 838839813483477, 49⟩],
  [⟨12, true, 1275291467968239, 49⟩, ⟨14, true, 8392843463316243, 47⟩, ⟨16, true, 3153430589483183, 44⟩,
    ⟨18, false, 4763763133571819, 46⟩, ⟨20, false, 3898664342133303, 43⟩, ⟨22, false, 72208861334763, 39⟩,
    ⟨24, true, 5746649468581551, 46⟩],
  [⟨1, false, 3444612048420429, 44⟩, ⟨3, true, 2399829956170993, 43⟩, ⟨5, true, 8968954640528715, 44⟩,
    ⟨7, false, 3279720432571089, 47⟩, ⟨9, false, 5843411466097101, 45⟩, ⟨11, false, 7549558321351293, 48⟩],
  [⟨12, false, 5738811605857075, 48⟩, ⟨14, false, 3807864163911999, 45⟩, ⟨16, false, 7759706696890709, 47⟩,
    ⟨18, true, 6504368893915369, 44⟩, ⟨20, true, 4280480585880321, 44⟩, ⟨22, false, 3083216108315051, 44⟩,
    ⟨24, false, 7040797678620983, 47⟩],
  [⟨1, true, 4905593146119915, 45⟩, ⟨3, true, 4308497202805279, 44⟩, ⟨5, false, 836349889248387, 41⟩,
    ⟨7, false, 6090909374774879, 44⟩, ⟨9, true, 4553307635919819, 45⟩, ⟨11, true, 681557348455325, 43⟩],
  [⟨12, true, 7970571674801493, 47⟩, ⟨14, true, 3807864163911999, 45⟩, ⟨16, false, 6793942335264701, 45⟩,
    ⟨18, false, 6504368893915369, 44⟩, ⟨20, true, 5506431221784495, 45⟩, ⟨22, true, 3083216108315051, 44⟩,
    ⟨24, false, 3728409676926509, 48⟩],
  [⟨1, true, 4374977556613837, 47⟩, ⟨3, false, 5022101382618489, 44⟩, ⟨5, false, 6184542330311181, 45⟩,
    ⟨7, true, 8824009735250787, 44⟩, ⟨9, true, 7892399902261019, 46⟩, ⟨11, false, 681557348455325, 42⟩],
  [⟨12, false, 7970571674801493, 46⟩, ⟨16, true, 6793942335264701, 44⟩, ⟨20, false, 5506431221784495, 44⟩,
    ⟨24, true, 3728409676926509, 47⟩],
  [⟨1, false, 271383700898195, 42⟩, ⟨3, false, 2493135942025231, 46⟩, ⟨5, true, 3771270972991193, 43⟩,
    ⟨7, true, 571022753885145, 43⟩, ⟨9, false, 357505794851517, 39⟩, ⟨11, true, 566872217705631, 41⟩],
  [⟨12, true, 1667177908645979, 43⟩, ⟨14, false, 2467340555187877, 43⟩, ⟨16, false, 3419365703554113, 44⟩,
    ⟨18, true, 1671897638224725, 42⟩, ⟨20, true, 8695888084069569, 47⟩, ⟨22, false, 6281666784888251, 46⟩,
    ⟨24, false, 7101732717955255, 51⟩],
  [⟨0, true, 3652856868353427, 45⟩, ⟨2, true, 2031773029548807, 42⟩, ⟨4, true, 4706819826608509, 43⟩,
    ⟨6, true, 3433123444076803, 44⟩, ⟨10, false, 5948416186625023, 50⟩],
  [⟨13, false, 838839813483477, 48⟩, ⟨15, false, 2428430739157237, 50⟩, ⟨17, true, 1376311252953939, 43⟩,
    ⟨19, true, 5189132032678131, 43⟩, ⟨21, true, 816147458267017, 40⟩, ⟨23, true, 5672092075201151, 44⟩],
  [⟨0, true, 908933525445755, 43⟩, ⟨2, true, 3475321443026911, 49⟩, ⟨4, false, 5000996065771541, 43⟩,
    ⟨6, false, 5046204494928493, 43⟩, ⟨8, false, 4894805708613805, 45⟩, ⟨10, true, 5948416186625023, 51⟩],
  [⟨13, true, 838839813483477, 49⟩, ⟨15, false, 3225259575443205, 45⟩, ⟨17, false, 4465690767563313, 43⟩,
    ⟨19, false, 6418857125458479, 43⟩, ⟨21, false, 8142253549584197, 46⟩, ⟨23, true, 8937718901793703, 45⟩],
  [⟨0, false, 5639097790520603, 47⟩, ⟨2, false, 2490444895125963, 43⟩, ⟨4, true, 1765057434978191, 44⟩,
    ⟨6, true, 3174421766110023, 42⟩, ⟨8, true, 1835552140730177, 42⟩, ⟨10, true, 6320192198289087, 47⟩],
  [⟨13, true, 3565069207304777, 47⟩, ⟨15, true, 2608665833079063, 43⟩, ⟨17, true, 1587394450437123, 41⟩,
    ⟨19, true, 5332799498315891, 44⟩, ⟨21, false, 3179494773969003, 43⟩, ⟨23, false, 4922012317241273, 45⟩],
  [⟨0, false, 3264740826090875, 47⟩, ⟨2, true, 3126355949144291, 44⟩, ⟨4, true, 1617969315396675, 42⟩,
    ⟨6, false, 7194950196629045, 44⟩, ⟨8, false, 6118507135767257, 43⟩, ⟨10, false, 6413136201205103, 45⟩],
  [⟨13, false, 7234993391294989, 46⟩, ⟨15, false, 4733542729841645, 43⟩, ⟨17, false, 2491513810755269, 42⟩,
    ⟨19, true, 8900541561653591, 45⟩, ⟨21, true, 5645385368124797, 44⟩, ⟨23, false, 8618601744256807, 48⟩],
  [⟨0, true, 3264740826090875, 47⟩, ⟨2, true, 4661693864567823, 47⟩, ⟨4, false, 1617969315396675, 42⟩,
    ⟨6, false, 7621047077986095, 45⟩, ⟨8, true, 6118507135767257, 43⟩, ⟨10, true, 4019828126117691, 43⟩],
  [⟨13, true, 566872217705631, 41⟩, ⟨15, true, 357505794851517, 39⟩, ⟨17, true, 571022753885145, 43⟩,
    ⟨19, false, 3771270972991193, 43⟩, ⟨21, false, 2493135942025231, 46⟩, ⟨23, true, 271383700898195, 42⟩],
  [⟨2, false, 4661693864567823, 46⟩, ⟨6, true, 7621047077986095, 44⟩, ⟨10, false, 4019828126117691, 42⟩],
  [⟨13, false, 566872217705631, 40⟩, ⟨15, false, 3282175920892203, 43⟩, ⟨17, true, 3055215760103425, 43⟩,
    ⟨19, true, 8565317475165485, 46⟩, ⟨21, false, 3155981665533735, 45⟩, ⟨23, false, 343664631193581, 45⟩],
  [⟨12, true, 4858253211307577, 53⟩, ⟨14, true, 3730152650362775, 49⟩, ⟨16, false, 3650309355247289, 48⟩,
    ⟨18, false, 3389600691195333, 44⟩, ⟨20, false, 7347796627297215, 44⟩, ⟨22, false, 1354812819011065, 42⟩,
    ⟨24, false, 8255555379409925, 47⟩],
  [⟨1, true, 6551086711371299, 45⟩, ⟨3, true, 4474955081569239, 43⟩, ⟨5, true, 8449015241077775, 44⟩,
    ⟨7, true, 1376311252953939, 43⟩, ⟨9, true, 2428430739157237, 50⟩, ⟨11, false, 838839813483477, 48⟩],
  [⟨12, false, 425097155989413, 47⟩, ⟨14, true, 2486768433575183, 49⟩, ⟨16, true, 5296307745496833, 45⟩,
    ⟨18, true, 939011002290599, 41⟩, ⟨20, true, 38321472249835, 37⟩, ⟨22, false, 2285331957695623, 44⟩,
    ⟨24, false, 6692670197633263, 46⟩],
  [⟨1, true, 8873667877815335, 45⟩, ⟨3, true, 4659327709617213, 45⟩, ⟨5, false, 3583135006084603, 43⟩,
    ⟨7, false, 1813119256994285, 42⟩, ⟨9, false, 6602296072083737, 46⟩, ⟨11, true, 838839813483477, 49⟩],
  [⟨12, true, 425097155989413, 49⟩, ⟨14, false, 1126816946463755, 44⟩, ⟨16, false, 362599028889475, 40⟩,
    ⟨18, false, 6321147234931837, 44⟩, ⟨20, true, 5784360472575451, 45⟩, ⟨22, true, 4596015520408039, 44⟩,
    ⟨24, true, 7568165832413693, 49⟩],
  [⟨1, false, 3968887561948953, 46⟩, ⟨3, false, 7129323767150593, 44⟩, ⟨5, false, 1802684628359509, 44⟩,
    ⟨7, true, 3831221041024263, 43⟩, ⟨9, true, 4572279751069485, 44⟩, ⟨11, true, 3565069207304777, 47⟩],
  [⟨12, true, 5526263027862369, 48⟩, ⟨14, true, 6061498056839509, 45⟩, ⟨16, true, 3385773899671469, 43⟩,
    ⟨18, false, 366443317967063, 45⟩, ⟨20, false, 7172660822168047, 44⟩, ⟨22, false, 378199853023247, 42⟩,
    ⟨24, true, 643594527564695, 44⟩],
  [⟨1, false, 5842298730290877, 46⟩, ⟨3, true, 5641653128690627, 45⟩, ⟨5, true, 8493483742346605, 44⟩,
    ⟨7, false, 6286130829094587, 46⟩, ⟨9, false, 3424466784514697, 43⟩, ⟨11, false, 7234993391294989, 46⟩],
  [⟨12, false, 5366851594366339, 46⟩, ⟨14, false, 2467340555187877, 43⟩, ⟨16, false, 843644157927647, 42⟩,
    ⟨18, true, 1671897638224725, 42⟩, ⟨20, true, 4419445211275799, 44⟩, ⟨22, false, 6281666784888251, 46⟩,
    ⟨24, false, 6569102764108611, 48⟩],
  [⟨1, true, 1827404975991979, 45⟩, ⟨3, true, 8805099273092701, 46⟩, ⟨5, false, 5401212577191015, 44⟩,
    ⟨7, false, 1813119256994285, 42⟩, ⟨9, true, 4875833593464139, 44⟩, ⟨11, true, 566872217705631, 41⟩],
  [⟨12, true, 1667177908645979, 43⟩, ⟨14, true, 2467340555187877, 43⟩, ⟨16, false, 3419365703554113, 44⟩,
    ⟨18, false, 1671897638224725, 42⟩, ⟨20, true, 8695888084069569, 47⟩, ⟨22, true, 6281666784888251, 46⟩,
    ⟨24, false, 7101732717955255, 51⟩],
  [⟨1, true, 343664631193581, 45⟩, ⟨3, false, 3155981665533735, 45⟩, ⟨5, false, 8565317475165485, 46⟩,
    ⟨7, true, 3055215760103425, 43⟩, ⟨9, true, 3282175920892203, 43⟩, ⟨11, false, 566872217705631, 40⟩],
  [⟨12, false, 1667177908645979, 42⟩, ⟨16, true, 3419365703554113, 43⟩, ⟨20, false, 8695888084069569, 46⟩,
    ⟨24, true, 7101732717955255, 50⟩]]

/-- The array `s2t13`: so3/_tensor_conversion_lut.npz. -/
def shippedS2t13 : List (List ShippedEntry) := [
  [⟨1, false, 4044599535530105, 63⟩, ⟨6, true, 4044599535530105, 63⟩, ⟨15, false, 4044599535530105, 63⟩,
    ⟨28, true, 4044599535530105, 63⟩, ⟨45, false, 4044599535530105, 63⟩, ⟨66, true, 4044599535530105, 63⟩,
    ⟨91, false, 4044599535530105, 63⟩],
  [⟨4, false, 1586422458179717, 63⟩, ⟨11, true, 1586422458179717, 63⟩, ⟨22, false, 1586422458179717, 63⟩,
    ⟨37, true, 1586422458179717, 63⟩, ⟨56, false, 1586422458179717, 63⟩, ⟨79, true, 1586422458179717, 63⟩],
  [⟨1, true, 1233947085806061, 62⟩, ⟨6, false, 6281912436830855, 65⟩, ⟨8, false, 7179328499235263, 66⟩,
    ⟨15, true, 336531023401653, 62⟩, ⟨17, true, 7179328499235263, 66⟩, ⟨28, true, 7179328499235263, 68⟩,
    ⟨30, false, 7179328499235263, 66⟩, ⟨45, false, 8974160624044079, 66⟩, ⟨47, true, 7179328499235263, 66⟩,
    ⟨66, true, 8076744561639671, 65⟩, ⟨68, false, 7179328499235263, 66⟩, ⟨91, false, 1458301101407163, 62⟩,
    ⟨93, true, 7179328499235263, 66⟩],
  [⟨4, true, 1586422458179717, 63⟩, ⟨11, false, 7614827799262641, 66⟩, ⟨13, false, 2538275933087547, 65⟩,
    ⟨22, true, 2538275933087547, 66⟩, ⟨24, true, 2538275933087547, 65⟩, ⟨37, true, 2538275933087547, 66⟩,
    ⟨39, false, 2538275933087547, 65⟩, ⟨56, false, 7614827799262641, 66⟩, ⟨58, true, 2538275933087547, 65⟩,
    ⟨79, true, 1586422458179717, 63⟩, ⟨81, false, 2538275933087547, 65⟩],
  [⟨1, false, 3572553052594741, 64⟩, ⟨6, true, 4763404070126321, 66⟩, ⟨8, true, 4763404070126321, 65⟩,
    ⟨15, true, 8468273902446793, 70⟩, ⟨17, false, 2646335594514623, 65⟩, ⟨19, false, 8468273902446793, 67⟩,
    ⟨28, false, 6351205426835095, 68⟩, ⟨30, true, 8468273902446793, 69⟩, ⟨32, true, 8468273902446793, 67⟩,
    ⟨45, false, 6351205426835095, 68⟩, ⟨47, true, 6351205426835095, 67⟩, ⟨49, false, 8468273902446793, 67⟩,
    ⟨66, true, 4498770510674859, 65⟩, ⟨68, false, 463108729040059, 62⟩, ⟨70, true, 8468273902446793, 67⟩,
    ⟨91, false, 5160354409303515, 64⟩, ⟨93, true, 2910969153966085, 64⟩, ⟨95, false, 8468273902446793, 67⟩],
  [⟨4, false, 2775500186754555, 64⟩, ⟨11, true, 6055636771100847, 67⟩, ⟨13, true, 2018545590366949, 64⟩,
    ⟨22, true, 2018545590366949, 67⟩, ⟨24, false, 2018545590366949, 65⟩, ⟨26, false, 2018545590366949, 65⟩,
    ⟨37, false, 2018545590366949, 67⟩, ⟨41, true, 2018545590366949, 65⟩, ⟨56, false, 6055636771100847, 67⟩,
    ⟨58, true, 2018545590366949, 65⟩, ⟨60, false, 2018545590366949, 65⟩, ⟨79, true, 2775500186754555, 64⟩,
    ⟨81, false, 2018545590366949, 64⟩, ⟨83, true, 2018545590366949, 65⟩],
  [⟨1, true, 5192485387881317, 65⟩, ⟨6, false, 7552706018736461, 69⟩, ⟨8, false, 295027578856893, 61⟩,
    ⟨15, false, 7552706018736461, 69⟩, ⟨17, true, 7552706018736461, 68⟩, ⟨19, true, 7552706018736461, 66⟩,
    ⟨28, false, 404609251003739, 66⟩, ⟨30, true, 2697395006691593, 67⟩, ⟨32, false, 404609251003739, 63⟩,
    ⟨34, false, 4315832010706549, 66⟩, ⟨45, true, 2697395006691593, 68⟩, ⟨47, false, 4315832010706549, 70⟩,
    ⟨49, false, 4315832010706549, 68⟩, ⟨51, true, 4315832010706549, 66⟩, ⟨66, true, 4450701761041129, 66⟩,
    ⟨68, false, 5125050512714027, 66⟩, ⟨70, true, 2697395006691593, 65⟩, ⟨72, false, 4315832010706549, 66⟩,
    ⟨91, false, 4821593574461223, 64⟩, ⟨93, true, 7417836268401881, 65⟩, ⟨95, false, 1213827753011217, 63⟩,
    ⟨97, true, 4315832010706549, 66⟩],
  [⟨4, true, 8776902236367093, 66⟩, ⟨11, false, 1276640325289759, 69⟩, ⟨13, false, 4308661097852937, 65⟩,
    ⟨22, false, 6383201626448795, 69⟩, ⟨24, true, 3829920975869277, 68⟩, ⟨26, true, 3829920975869277, 65⟩,
    ⟨37, false, 6383201626448795, 69⟩, ⟨39, true, 6383201626448795, 68⟩, ⟨41, false, 1276640325289759, 65⟩,
    ⟨43, false, 1276640325289759, 64⟩, ⟨56, false, 1276640325289759, 69⟩, ⟨58, true, 3829920975869277, 68⟩,
    ⟨60, false, 1276640325289759, 65⟩, ⟨62, true, 1276640325289759, 64⟩, ⟨79, true, 8776902236367093, 66⟩,
    ⟨81, false, 4308661097852937, 65⟩, ⟨83, true, 3829920975869277, 65⟩, ⟨85, false, 1276640325289759, 64⟩],
  [⟨1, false, 7119007769546189, 66⟩, ⟨6, false, 647182524504199, 66⟩, ⟨8, true, 1941547573512597, 64⟩,
    ⟨15, true, 8283936313653747, 72⟩, ⟨17, true, 8283936313653747, 70⟩, ⟨19, false, 8283936313653747, 66⟩,
    ⟨28, true, 3106476117620155, 69⟩, ⟨30, false, 8283936313653747, 70⟩, ⟨34, true, 8283936313653747, 66⟩,
    ⟨45, true, 6005853827398967, 69⟩, ⟨47, false, 4556164972509561, 68⟩, ⟨49, true, 3313574525461499, 67⟩,
    ⟨51, false, 3313574525461499, 67⟩, ⟨53, false, 3313574525461499, 65⟩, ⟨66, true, 5695206215636951, 68⟩,
    ⟨68, false, 4349066564668217, 67⟩, ⟨70, true, 3313574525461499, 66⟩, ⟨72, false, 621295223524031, 63⟩,
    ⟨74, true, 3313574525461499, 65⟩, ⟨91, false, 4627355050205023, 64⟩, ⟨93, true, 8542809323455427, 65⟩,
    ⟨95, false, 1863885670572093, 63⟩, ⟨97, true, 5798755419557623, 65⟩, ⟨99, false, 3313574525461499, 65⟩],
  [⟨4, false, 3020339201499497, 65⟩, ⟨11, false, 7907797182107775, 69⟩, ⟨13, true, 3514576525381233, 65⟩,
    ⟨22, false, 5857627542302055, 71⟩, ⟨24, true, 1171525508460411, 66⟩, ⟨26, false, 8200678559222877, 66⟩,
    ⟨37, true, 5857627542302055, 71⟩, ⟨41, false, 1171525508460411, 66⟩, ⟨43, true, 1171525508460411, 63⟩,
    ⟨56, true, 7907797182107775, 69⟩, ⟨58, false, 1171525508460411, 66⟩, ⟨60, true, 1171525508460411, 66⟩,
    ⟨64, false, 1171525508460411, 63⟩, ⟨79, true, 3020339201499497, 65⟩, ⟨81, false, 3514576525381233, 65⟩,
    ⟨83, true, 8200678559222877, 66⟩, ⟨85, false, 1171525508460411, 63⟩, ⟨87, true, 1171525508460411, 63⟩],
  [⟨1, true, 521211244948501, 63⟩, ⟨6, true, 3537918753589825, 68⟩, ⟨8, false, 631771205998183, 63⟩,
    ⟨15, true, 2807872026658591, 69⟩, ⟨17, false, 308865922932445, 64⟩, ⟨19, true, 1572408334928811, 64⟩,
    ⟨28, true, 6738892863980619, 71⟩, ⟨30, false, 8985190485307491, 70⟩, ⟨32, true, 7188152388245993, 68⟩,
    ⟨34, false, 4043335718388371, 65⟩, ⟨45, true, 4043335718388371, 71⟩, ⟨47, false, 5391114291184495, 70⟩,
    ⟨49, true, 7188152388245993, 69⟩, ⟨51, false, 5391114291184495, 67⟩, ⟨53, true, 5391114291184495, 65⟩,
    ⟨66, false, 926597768797335, 67⟩, ⟨68, true, 5391114291184495, 70⟩, ⟨72, false, 7188152388245993, 69⟩,
    ⟨74, true, 7188152388245993, 67⟩, ⟨76, false, 7188152388245993, 65⟩, ⟨91, false, 141161378840219, 59⟩,
    ⟨93, true, 4632988843986675, 64⟩, ⟨95, false, 4717225004786433, 64⟩, ⟨97, true, 4717225004786433, 64⟩,
    ⟨99, false, 8985190485307491, 65⟩, ⟨101, true, 7188152388245993, 65⟩],
  [⟨4, true, 6146354261362485, 67⟩, ⟨11, true, 3352556869834083, 68⟩, ⟨13, false, 7822632696279527, 67⟩,
    ⟨22, true, 7450126377409073, 70⟩, ⟨24, false, 5215088464186351, 68⟩, ⟨26, true, 5215088464186351, 66⟩,
    ⟨37, true, 7450126377409073, 70⟩, ⟨39, false, 7450126377409073, 69⟩, ⟨41, true, 1117518956611361, 65⟩,
    ⟨43, false, 7450126377409073, 66⟩, ⟨56, true, 3352556869834083, 68⟩, ⟨58, false, 5215088464186351, 68⟩,
    ⟨60, true, 1117518956611361, 65⟩, ⟨62, false, 1117518956611361, 64⟩, ⟨64, true, 2980050550963629, 64⟩,
    ⟨79, true, 6146354261362485, 67⟩, ⟨81, false, 7822632696279527, 67⟩, ⟨83, true, 5215088464186351, 66⟩,
    ⟨85, false, 7450126377409073, 66⟩, ⟨87, true, 2980050550963629, 64⟩, ⟨89, false, 2980050550963629, 63⟩],
  [⟨1, false, 2748733188440405, 67⟩, ⟨6, false, 5997236047506339, 70⟩, ⟨8, true, 6996775388757395, 68⟩,
    ⟨15, false, 832949451042547, 68⟩, ⟨17, true, 4664516925838263, 69⟩, ⟨19, false, 4664516925838263, 67⟩,
    ⟨28, false, 832949451042547, 68⟩, ⟨30, true, 832949451042547, 67⟩, ⟨32, false, 1999078682502113, 67⟩,
    ⟨34, true, 832949451042547, 64⟩, ⟨45, false, 5997236047506339, 70⟩, ⟨47, true, 4664516925838263, 69⟩,
    ⟨49, false, 1999078682502113, 67⟩, ⟨51, true, 1999078682502113, 66⟩, ⟨53, false, 5330876486672301, 66⟩,
    ⟨66, false, 2748733188440405, 67⟩, ⟨68, true, 6996775388757395, 68⟩, ⟨70, false, 4664516925838263, 67⟩,
    ⟨72, true, 832949451042547, 64⟩, ⟨74, false, 5330876486672301, 66⟩, ⟨76, true, 5330876486672301, 65⟩,
    ⟨91, false, 8933382862431317, 65⟩, ⟨93, true, 4810283079770709, 64⟩, ⟨95, false, 2623790770784023, 63⟩,
    ⟨97, true, 5830646157297829, 64⟩, ⟨99, false, 832949451042547, 61⟩, ⟨101, true, 1999078682502113, 62⟩,
    ⟨103, false, 5330876486672301, 63⟩],
  [⟨2, false, 6555310856722737, 65⟩, ⟨7, false, 297968675305579, 64⟩, ⟨9, true, 7151248207333895, 65⟩,
    ⟨16, false, 6356665073185685, 70⟩, ⟨18, true, 6356665073185685, 68⟩, ⟨20, false, 3972915670741053, 64⟩,
    ⟨29, false, 4540475052275489, 70⟩, ⟨31, true, 5448570062730587, 69⟩, ⟨33, false, 4540475052275489, 67⟩,
    ⟨35, true, 4540475052275489, 64⟩, ⟨46, false, 6356665073185685, 70⟩, ⟨48, true, 5448570062730587, 69⟩,
    ⟨50, false, 5448570062730587, 68⟩, ⟨52, true, 7264760083640783, 67⟩, ⟨54, false, 5448570062730587, 64⟩,
    ⟨67, false, 297968675305579, 64⟩, ⟨69, true, 6356665073185685, 68⟩, ⟨71, false, 4540475052275489, 67⟩,
    ⟨73, true, 7264760083640783, 67⟩, ⟨75, false, 7264760083640783, 66⟩, ⟨77, true, 7264760083640783, 64⟩,
    ⟨92, false, 6555310856722737, 65⟩, ⟨94, true, 7151248207333895, 65⟩, ⟨96, false, 3972915670741053, 64⟩,
    ⟨98, true, 4540475052275489, 64⟩, ⟨100, false, 5448570062730587, 64⟩, ⟨102, true, 7264760083640783, 64⟩,
    ⟨104, false, 7264760083640783, 63⟩],
  [⟨0, false, 8933382862431317, 65⟩, ⟨3, false, 2748733188440405, 67⟩, ⟨5, true, 4810283079770709, 64⟩,
    ⟨10, false, 5997236047506339, 70⟩, ⟨12, true, 6996775388757395, 68⟩, ⟨14, false, 2623790770784023, 63⟩,
    ⟨21, false, 832949451042547, 68⟩, ⟨23, true, 4664516925838263, 69⟩, ⟨25, false, 4664516925838263, 67⟩,
    ⟨27, true, 5830646157297829, 64⟩, ⟨36, false, 832949451042547, 68⟩, ⟨38, true, 832949451042547, 67⟩,
    ⟨40, false, 1999078682502113, 67⟩, ⟨42, true, 832949451042547, 64⟩, ⟨44, false, 832949451042547, 61⟩,
    ⟨55, false, 5997236047506339, 70⟩, ⟨57, true, 4664516925838263, 69⟩, ⟨59, false, 1999078682502113, 67⟩,
    ⟨61, true, 1999078682502113, 66⟩, ⟨63, false, 5330876486672301, 66⟩, ⟨65, true, 1999078682502113, 62⟩,
    ⟨78, false, 2748733188440405, 67⟩, ⟨80, true, 6996775388757395, 68⟩, ⟨82, false, 4664516925838263, 67⟩,
    ⟨84, true, 832949451042547, 64⟩, ⟨86, false, 5330876486672301, 66⟩, ⟨88, true, 5330876486672301, 65⟩,
    ⟨90, false, 5330876486672301, 63⟩],
  [⟨2, true, 576220712002733, 61⟩, ⟨7, true, 1117518956611361, 66⟩, ⟨9, false, 305571589698419, 60⟩,
    ⟨16, true, 2980050550963629, 70⟩, ⟨18, false, 5215088464186351, 68⟩, ⟨20, true, 5215088464186351, 64⟩,
    ⟨31, false, 2980050550963629, 70⟩, ⟨33, true, 2980050550963629, 67⟩, ⟨35, false, 5587594783056805, 64⟩,
    ⟨46, false, 2980050550963629, 70⟩, ⟨48, true, 2980050550963629, 70⟩, ⟨52, false, 2980050550963629, 67⟩,
    ⟨54, true, 2980050550963629, 63⟩, ⟨67, false, 1117518956611361, 66⟩, ⟨69, true, 5215088464186351, 68⟩,
    ⟨71, false, 2980050550963629, 67⟩, ⟨73, true, 2980050550963629, 67⟩, ⟨77, false, 2980050550963629, 63⟩,
    ⟨92, false, 576220712002733, 61⟩, ⟨94, true, 305571589698419, 60⟩, ⟨96, false, 5215088464186351, 64⟩,
    ⟨98, true, 5587594783056805, 64⟩, ⟨100, false, 2980050550963629, 63⟩, ⟨102, true, 2980050550963629, 63⟩],
  [⟨0, true, 141161378840219, 59⟩, ⟨3, true, 926597768797335, 67⟩, ⟨5, false, 4632988843986675, 64⟩,
    ⟨10, false, 4043335718388371, 71⟩, ⟨12, false, 5391114291184495, 70⟩, ⟨14, true, 4717225004786433, 64⟩,
    ⟨21, false, 6738892863980619, 71⟩, ⟨23, true, 5391114291184495, 70⟩, ⟨27, false, 4717225004786433, 64⟩,
    ⟨36, false, 2807872026658591, 69⟩, ⟨38, true, 8985190485307491, 70⟩, ⟨40, false, 7188152388245993, 69⟩,
    ⟨42, true, 7188152388245993, 69⟩, ⟨44, true, 8985190485307491, 65⟩, ⟨55, false, 3537918753589825, 68⟩,
    ⟨57, true, 308865922932445, 64⟩, ⟨59, false, 7188152388245993, 68⟩, ⟨61, true, 5391114291184495, 67⟩,
    ⟨63, false, 7188152388245993, 67⟩, ⟨65, false, 7188152388245993, 65⟩, ⟨78, false, 521211244948501, 63⟩,
    ⟨80, true, 631771205998183, 63⟩, ⟨82, false, 1572408334928811, 64⟩, ⟨84, true, 4043335718388371, 65⟩,
    ⟨86, false, 5391114291184495, 65⟩, ⟨88, true, 7188152388245993, 65⟩],
  [⟨2, false, 2265254401124623, 63⟩, ⟨7, true, 8786441313453083, 70⟩, ⟨9, true, 8786441313453083, 65⟩,
    ⟨16, true, 4978983410956747, 69⟩, ⟨18, false, 1171525508460411, 66⟩, ⟨20, false, 8200678559222877, 65⟩,
    ⟨29, true, 8786441313453083, 70⟩, ⟨31, false, 1171525508460411, 66⟩, ⟨33, true, 1171525508460411, 65⟩,
    ⟨35, true, 3514576525381233, 64⟩, ⟨46, true, 4978983410956747, 69⟩, ⟨48, false, 1171525508460411, 66⟩,
    ⟨50, true, 1171525508460411, 65⟩, ⟨52, false, 1171525508460411, 64⟩, ⟨54, false, 1171525508460411, 63⟩,
    ⟨67, true, 8786441313453083, 70⟩, ⟨69, false, 1171525508460411, 66⟩, ⟨71, true, 1171525508460411, 65⟩,
    ⟨73, false, 1171525508460411, 64⟩, ⟨75, true, 1171525508460411, 63⟩, ⟨92, false, 2265254401124623, 63⟩,
    ⟨94, true, 8786441313453083, 65⟩, ⟨96, false, 8200678559222877, 65⟩, ⟨98, true, 3514576525381233, 64⟩,
    ⟨100, false, 1171525508460411, 63⟩],
  [⟨0, false, 4627355050205023, 64⟩, ⟨3, true, 5695206215636951, 68⟩, ⟨5, true, 8542809323455427, 65⟩,
    ⟨10, true, 6005853827398967, 69⟩, ⟨12, false, 4349066564668217, 67⟩, ⟨14, false, 1863885670572093, 63⟩,
    ⟨21, true, 3106476117620155, 69⟩, ⟨23, false, 4556164972509561, 68⟩, ⟨25, true, 3313574525461499, 66⟩,
    ⟨27, true, 5798755419557623, 65⟩, ⟨36, true, 8283936313653747, 72⟩, ⟨38, false, 8283936313653747, 70⟩,
    ⟨40, true, 3313574525461499, 67⟩, ⟨42, false, 621295223524031, 63⟩, ⟨44, false, 3313574525461499, 65⟩,
    ⟨55, false, 647182524504199, 66⟩, ⟨57, true, 8283936313653747, 70⟩, ⟨61, false, 3313574525461499, 67⟩,
    ⟨63, true, 3313574525461499, 65⟩, ⟨78, false, 7119007769546189, 66⟩, ⟨80, true, 1941547573512597, 64⟩,
    ⟨82, false, 8283936313653747, 66⟩, ⟨84, true, 8283936313653747, 66⟩, ⟨86, false, 3313574525461499, 65⟩],
  [⟨2, true, 8776902236367093, 65⟩, ⟨7, false, 6383201626448795, 67⟩, ⟨9, false, 7181101829754895, 65⟩,
    ⟨16, false, 3829920975869277, 68⟩, ⟨18, true, 4149081057191717, 66⟩, ⟨20, true, 1276640325289759, 63⟩,
    ⟨31, true, 3829920975869277, 68⟩, ⟨33, false, 1276640325289759, 64⟩, ⟨35, false, 1276640325289759, 64⟩,
    ⟨46, true, 3829920975869277, 68⟩, ⟨48, false, 3829920975869277, 68⟩, ⟨52, true, 1276640325289759, 64⟩,
    ⟨67, true, 6383201626448795, 67⟩, ⟨69, false, 4149081057191717, 66⟩, ⟨71, true, 1276640325289759, 64⟩,
    ⟨73, false, 1276640325289759, 64⟩, ⟨92, false, 8776902236367093, 65⟩, ⟨94, true, 7181101829754895, 65⟩,
    ⟨96, false, 1276640325289759, 63⟩, ⟨98, true, 1276640325289759, 64⟩],
  [⟨0, true, 4821593574461223, 64⟩, ⟨3, false, 4450701761041129, 66⟩, ⟨5, false, 7417836268401881, 65⟩,
    ⟨10, false, 2697395006691593, 68⟩, ⟨12, true, 5125050512714027, 66⟩, ⟨14, true, 1213827753011217, 63⟩,
    ⟨21, true, 404609251003739, 66⟩, ⟨23, true, 4315832010706549, 70⟩, ⟨25, false, 2697395006691593, 65⟩,
    ⟨27, false, 4315832010706549, 66⟩, ⟨36, true, 7552706018736461, 69⟩, ⟨38, false, 2697395006691593, 67⟩,
    ⟨40, true, 4315832010706549, 68⟩, ⟨42, true, 4315832010706549, 66⟩, ⟨55, true, 7552706018736461, 69⟩,
    ⟨57, false, 7552706018736461, 68⟩, ⟨59, true, 404609251003739, 63⟩, ⟨61, false, 4315832010706549, 66⟩,
    ⟨78, false, 5192485387881317, 65⟩, ⟨80, true, 295027578856893, 61⟩, ⟨82, false, 7552706018736461, 66⟩,
    ⟨84, true, 4315832010706549, 66⟩],
  [⟨2, false, 520406285016479, 61⟩, ⟨7, true, 820034146086573, 63⟩, ⟨9, true, 1261590993979343, 63⟩,
    ⟨16, false, 2018545590366949, 68⟩, ⟨18, false, 6055636771100847, 66⟩, ⟨20, false, 2018545590366949, 65⟩,
    ⟨29, false, 6055636771100847, 68⟩, ⟨31, true, 2018545590366949, 66⟩, ⟨33, true, 2018545590366949, 65⟩,
    ⟨46, false, 2018545590366949, 68⟩, ⟨48, true, 2018545590366949, 66⟩, ⟨50, false, 2018545590366949, 65⟩,
    ⟨67, true, 820034146086573, 63⟩, ⟨69, false, 6055636771100847, 66⟩, ⟨71, true, 2018545590366949, 65⟩,
    ⟨92, false, 520406285016479, 61⟩, ⟨94, true, 1261590993979343, 63⟩, ⟨96, false, 2018545590366949, 65⟩],
  [⟨0, false, 5160354409303515, 64⟩, ⟨3, true, 4498770510674859, 65⟩, ⟨5, true, 2910969153966085, 64⟩,
    ⟨10, false, 6351205426835095, 68⟩, ⟨12, false, 463108729040059, 62⟩, ⟨14, false, 8468273902446793, 67⟩,
    ⟨21, false, 6351205426835095, 68⟩, ⟨23, true, 6351205426835095, 67⟩, ⟨25, true, 8468273902446793, 67⟩,
    ⟨36, true, 8468273902446793, 70⟩, ⟨38, true, 8468273902446793, 69⟩, ⟨40, false, 8468273902446793, 67⟩,
    ⟨55, true, 4763404070126321, 66⟩, ⟨57, false, 2646335594514623, 65⟩, ⟨59, true, 8468273902446793, 67⟩,
    ⟨78, false, 3572553052594741, 64⟩, ⟨80, true, 4763404070126321, 65⟩, ⟨82, false, 8468273902446793, 67⟩],
  [⟨2, true, 7614827799262641, 65⟩, ⟨7, false, 2538275933087547, 64⟩, ⟨9, false, 2538275933087547, 65⟩,
    ⟨16, true, 2538275933087547, 65⟩, ⟨18, true, 2538275933087547, 65⟩, ⟨31, false, 2538275933087547, 65⟩,
    ⟨46, false, 2538275933087547, 65⟩, ⟨48, true, 2538275933087547, 65⟩, ⟨67, true, 2538275933087547, 64⟩,
    ⟨69, false, 2538275933087547, 65⟩, ⟨92, false, 7614827799262641, 65⟩, ⟨94, true, 2538275933087547, 65⟩],
  [⟨0, true, 1458301101407163, 62⟩, ⟨3, false, 8076744561639671, 65⟩, ⟨5, false, 7179328499235263, 66⟩,
    ⟨10, true, 8974160624044079, 66⟩, ⟨12, true, 7179328499235263, 66⟩, ⟨21, false, 7179328499235263, 68⟩,
    ⟨23, false, 7179328499235263, 66⟩, ⟨36, false, 336531023401653, 62⟩, ⟨38, true, 7179328499235263, 66⟩,
    ⟨55, true, 6281912436830855, 65⟩, ⟨57, false, 7179328499235263, 66⟩, ⟨78, false, 1233947085806061, 62⟩,
    ⟨80, true, 7179328499235263, 66⟩],
  [⟨2, false, 1586422458179717, 63⟩, ⟨7, true, 1586422458179717, 63⟩, ⟨16, false, 1586422458179717, 63⟩,
    ⟨29, true, 1586422458179717, 63⟩, ⟨46, false, 1586422458179717, 63⟩, ⟨67, true, 1586422458179717, 63⟩,
    ⟨92, false, 1586422458179717, 63⟩],
  [⟨0, false, 4044599535530105, 63⟩, ⟨3, true, 4044599535530105, 63⟩, ⟨10, false, 4044599535530105, 63⟩,
    ⟨21, true, 4044599535530105, 63⟩, ⟨36, false, 4044599535530105, 63⟩, ⟨55, true, 4044599535530105, 63⟩,
    ⟨78, false, 4044599535530105, 63⟩]]

/-- The array `t2s13`: so3/_tensor_conversion_lut.npz. -/
def shippedT2s13 : List (List ShippedEntry) := [
  [⟨14, true, 6366041467961623, 52⟩, ⟨16, false, 2862217018148793, 47⟩, ⟨18, false, 6769112534953197, 47⟩,
    ⟨20, true, 2092330357661127, 42⟩, ⟨22, false, 7479910638307319, 43⟩, ⟨24, true, 4663613644318341, 43⟩,
    ⟨26, false, 6025712149247963, 46⟩],
  [⟨0, false, 5643609040942345, 45⟩, ⟨2, true, 899128718388309, 40⟩, ⟨4, false, 1209428004429061, 40⟩,
    ⟨6, true, 4431156006563367, 43⟩, ⟨8, false, 3504575993273641, 47⟩, ⟨10, false, 6314581875091151, 48⟩,
    ⟨12, true, 6366041467961623, 52⟩],
  [⟨13, true, 2335698659282489, 51⟩, ⟨15, false, 7259799749671817, 49⟩, ⟨17, false, 3688875254378645, 47⟩,
    ⟨19, true, 7347891380103303, 44⟩, ⟨21, false, 4481697040368961, 42⟩, ⟨23, true, 1019376856176143, 40⟩,
    ⟨25, false, 5159722112131203, 44⟩],
  [⟨14, true, 7320947688155867, 50⟩, ⟨16, true, 5694926644357907, 47⟩, ⟨18, false, 1632768353030599, 42⟩,
    ⟨20, true, 4033384788921945, 43⟩, ⟨22, true, 7737717135697017, 44⟩, ⟨24, false, 7627788917789073, 43⟩,
    ⟨26, true, 8917867696859615, 45⟩],
  [⟨1, false, 570758885680223, 40⟩, ⟨3, true, 382182389748267, 38⟩, ⟨5, false, 2870866132589279, 41⟩,
    ⟨7, true, 7442238912414947, 44⟩, ⟨11, false, 1447136162725279, 47⟩],
  [⟨14, false, 278514314223321, 45⟩, ⟨16, false, 5665419252418229, 48⟩, ⟨18, true, 3688606239495773, 43⟩,
    ⟨20, false, 8218045504244199, 43⟩, ⟨22, true, 7222104140917621, 44⟩, ⟨24, true, 5928350546941465, 44⟩,
    ⟨26, false, 2952505811117817, 44⟩],
  [⟨0, true, 3116668610237509, 43⟩, ⟨2, false, 8366466935373959, 43⟩, ⟨4, true, 4564397994771985, 45⟩,
    ⟨6, true, 3335557387316459, 42⟩, ⟨8, false, 3605592595819485, 43⟩, ⟨10, true, 8675173230265413, 48⟩,
    ⟨12, true, 7320947688155867, 50⟩],
  [⟨13, true, 1343026729087431, 48⟩, ⟨15, true, 3024916562363257, 47⟩, ⟨17, false, 2445577191265597, 43⟩,
    ⟨19, true, 4468312325738495, 43⟩, ⟨21, true, 5959451340960911, 44⟩, ⟨23, false, 5797017657900563, 42⟩,
    ⟨25, true, 6762779929586391, 43⟩],
  [⟨0, false, 6823065400007691, 45⟩, ⟨2, true, 4693748753069949, 45⟩, ⟨4, true, 8534324536739491, 43⟩,
    ⟨6, false, 2775567695299071, 41⟩, ⟨8, true, 239039287212443, 39⟩, ⟨10, false, 1180295677587131, 47⟩,
    ⟨12, false, 278514314223321, 45⟩],
  [⟨13, false, 6539956245990969, 50⟩, ⟨15, false, 4839866499781211, 49⟩, ⟨17, true, 5352263789328525, 44⟩,
    ⟨19, false, 8142258015790147, 43⟩, ⟨21, true, 5983668410257467, 43⟩, ⟨23, true, 1719510233195991, 42⟩,
    ⟨25, false, 4182918873520789, 43⟩],
  [⟨14, false, 7002645614757785, 49⟩, ⟨16, true, 5193300981383377, 45⟩, ⟨18, false, 5504904756557683, 47⟩,
    ⟨20, false, 3473203122378669, 42⟩, ⟨22, true, 8915897720731833, 44⟩, ⟨24, true, 6396779101935341, 43⟩,
    ⟨26, false, 1853257208785485, 42⟩],
  [⟨1, true, 4555369356335279, 42⟩, ⟨3, false, 3098316494613681, 41⟩, ⟨5, false, 2870866132589279, 45⟩,
    ⟨7, true, 7217916108317333, 43⟩, ⟨9, false, 4946519841541917, 44⟩, ⟨11, true, 1447136162725279, 48⟩],
  [⟨14, true, 835542942669963, 47⟩, ⟨16, false, 3308516321236427, 44⟩, ⟨18, true, 7219186506692107, 44⟩,
    ⟨20, true, 5826042911670785, 44⟩, ⟨22, false, 8326807428214425, 43⟩, ⟨24, true, 2462019631707465, 44⟩,
    ⟨26, true, 738523746678033, 42⟩],
  [⟨1, false, 4544667627228775, 43⟩, ⟨3, true, 1307436052081441, 46⟩, ⟨5, true, 3050295265876109, 41⟩,
    ⟨7, false, 5469517782262403, 42⟩, ⟨9, true, 4946519841541917, 44⟩, ⟨11, true, 1447136162725279, 48⟩],
  [⟨14, true, 278514314223321, 47⟩, ⟨16, true, 1831302512256283, 43⟩, ⟨18, false, 3649099746420913, 42⟩,
    ⟨20, true, 5305024048408807, 43⟩, ⟨22, true, 2357877678877807, 42⟩, ⟨24, false, 4195185089324465, 43⟩,
    ⟨26, false, 1627315808578635, 54⟩],
  [⟨0, false, 2158023638924253, 42⟩, ⟨2, true, 4591730807119077, 43⟩, ⟨4, true, 7784484310555565, 43⟩,
    ⟨6, false, 3053930757837711, 42⟩, ⟨8, false, 3680604924442637, 44⟩, ⟨10, true, 5842463604056299, 45⟩,
    ⟨12, false, 7002645614757785, 49⟩],
  [⟨13, false, 1284634262605369, 47⟩, ⟨15, true, 6654816437199165, 46⟩, ⟨17, false, 1482339442710437, 44⟩,
    ⟨19, false, 359947381795601, 39⟩, ⟨21, true, 6532041369243883, 43⟩, ⟨23, true, 8116865166946143, 43⟩,
    ⟨25, false, 2588608961862465, 41⟩],
  [⟨0, true, 4797514670443987, 45⟩, ⟨2, true, 7549472256509763, 44⟩, ⟨4, false, 4462791904624281, 42⟩,
    ⟨6, false, 4506026071659967, 46⟩, ⟨8, true, 1361473764510201, 41⟩, ⟨10, false, 6926860257839475, 45⟩,
    ⟨12, true, 835542942669963, 47⟩],
  [⟨13, true, 4904967184493227, 50⟩, ⟨15, false, 4083637359190397, 45⟩, ⟨17, true, 6373493825241631, 44⟩,
    ⟨19, true, 5163383131964483, 45⟩, ⟨21, false, 4755883519862169, 42⟩, ⟨23, true, 3477170148854983, 43⟩,
    ⟨25, true, 7183311835726939, 44⟩],
  [⟨0, true, 4051101459127409, 46⟩, ⟨2, false, 4948173316522369, 43⟩, ⟨4, true, 1565037090036283, 45⟩,
    ⟨6, true, 2916381010038445, 41⟩, ⟨8, false, 2317630913359973, 41⟩, ⟨10, true, 3610967088618129, 44⟩,
    ⟨12, true, 278514314223321, 47⟩],
  [⟨13, true, 6539956245990969, 52⟩, ⟨15, true, 8772258030853445, 46⟩, ⟨17, false, 2931439403642539, 42⟩,
    ⟨19, true, 3425706116399513, 42⟩, ⟨21, true, 7056197258933743, 44⟩, ⟨23, false, 6916190615246965, 43⟩,
    ⟨25, true, 2365051822629279, 45⟩],
  [⟨14, false, 2466841068835129, 46⟩, ⟨16, false, 7317833201040213, 48⟩, ⟨18, true, 8089329518720665, 44⟩,
    ⟨20, true, 3105379930775887, 44⟩, ⟨22, false, 4961429784679915, 42⟩, ⟨24, false, 2926091651113507, 44⟩,
    ⟨26, true, 1131485821450243, 41⟩],
  [⟨1, false, 5946594140180823, 42⟩, ⟨3, true, 2530668576696977, 42⟩, ⟨5, true, 2691436999302449, 41⟩,
    ⟨7, false, 2197043934250157, 42⟩, ⟨9, false, 4946519841541917, 44⟩, ⟨11, true, 1537582172895609, 44⟩],
  [⟨14, true, 835542942669963, 44⟩, ⟨16, false, 2139285915626675, 44⟩, ⟨18, false, 3700608212075477, 43⟩,
    ⟨20, true, 2696858139684697, 42⟩, ⟨22, true, 5464910708993913, 43⟩, ⟨24, false, 4933733276378587, 43⟩,
    ⟨26, false, 6555430945840019, 46⟩],
  [⟨1, true, 2782449567691087, 43⟩, ⟨3, true, 7331928825060771, 43⟩, ⟨5, false, 2512007866015619, 41⟩,
    ⟨7, false, 2823828239817019, 43⟩, ⟨9, true, 4946519841541917, 43⟩, ⟨11, false, 1628028183065939, 44⟩],
  [⟨14, false, 7519886484029667, 47⟩, ⟨16, true, 2723901118431551, 43⟩, ⟨18, true, 5824957358683129, 49⟩,
    ⟨20, false, 8306737735204787, 43⟩, ⟨22, true, 5723793438441025, 44⟩, ⟨24, true, 3702723460524855, 43⟩,
    ⟨26, false, 5260949001008509, 46⟩],
  [⟨1, true, 7048872238150753, 45⟩, ⟨3, false, 7495358331570951, 43⟩, ⟨5, false, 8612598397767837, 45⟩,
    ⟨7, true, 6881431902170913, 42⟩, ⟨9, false, 7419779762312875, 43⟩, ⟨11, true, 1537582172895609, 44⟩],
  [⟨14, true, 3620686084903173, 46⟩, ⟨16, false, 2277601815343917, 42⟩, ⟨18, true, 3603592267056201, 42⟩,
    ⟨20, true, 750428421698995, 41⟩, ⟨22, false, 7577652076976127, 43⟩, ⟨24, true, 246230814399805, 42⟩,
    ⟨26, true, 5267305703385769, 46⟩],
  [⟨0, true, 1131485821450243, 41⟩, ⟨2, true, 2926091651113507, 44⟩, ⟨4, false, 4961429784679915, 42⟩,
    ⟨6, false, 3105379930775887, 44⟩, ⟨8, true, 8089329518720665, 44⟩, ⟨10, true, 7317833201040213, 48⟩,
    ⟨12, false, 2466841068835129, 46⟩],
  [⟨13, false, 1810166460943929, 46⟩, ⟨17, true, 5895411066046853, 44⟩, ⟨21, false, 5411078381974495, 42⟩,
    ⟨25, true, 734115155671517, 39⟩],
  [⟨0, false, 1679168063619731, 46⟩, ⟨2, false, 6054776632675831, 43⟩, ⟨4, true, 8553501035217055, 45⟩,
    ⟨6, true, 7660551481063365, 43⟩, ⟨8, false, 1102181148569507, 42⟩, ⟨10, false, 6757192754186325, 45⟩,
    ⟨12, true, 835542942669963, 44⟩],
  [⟨13, true, 4904967184493227, 47⟩, ⟨15, false, 6654816437199165, 46⟩, ⟨17, false, 137908488229263, 39⟩,
    ⟨19, true, 359947381795601, 39⟩, ⟨21, true, 8580230789410213, 44⟩, ⟨23, false, 8116865166946143, 43⟩,
    ⟨25, false, 347851660823603, 41⟩],
  [⟨0, false, 3957930638634121, 45⟩, ⟨2, true, 2280040504420949, 43⟩, ⟨4, true, 3393604275222149, 42⟩,
    ⟨6, false, 7097298222105869, 43⟩, ⟨8, false, 6483065521803579, 44⟩, ⟨10, true, 1710506626503225, 42⟩,
    ⟨12, false, 7519886484029667, 47⟩],
  [⟨13, false, 321195, 13⟩, ⟨15, true, 1852761394447495, 43⟩, ⟨17, false, 3920844403810431, 45⟩,
    ⟨19, false, 7050003891720737, 43⟩, ⟨21, true, 163176613906851, 38⟩, ⟨23, true, 579961877261395, 40⟩,
    ⟨25, false, 8800997098276229, 45⟩],
  [⟨0, true, 7729519636281667, 47⟩, ⟨2, true, 667033203025355, 41⟩, ⟨4, false, 7178467822953369, 43⟩,
    ⟨6, false, 4568225818047911, 43⟩, ⟨8, true, 782003525896355, 39⟩, ⟨10, false, 5226496797315515, 43⟩,
    ⟨12, true, 3620686084903173, 46⟩],
  [⟨13, true, 2656857224933831, 46⟩, ⟨15, false, 5898587296608351, 44⟩, ⟨17, true, 3421544954118843, 42⟩,
    ⟨19, true, 6354933085494749, 48⟩, ⟨21, false, 1093718784310763, 40⟩, ⟨23, true, 1138247798577903, 42⟩,
    ⟨25, true, 3217972637823475, 44⟩],
  [⟨14, false, 7002645614757785, 49⟩, ⟨16, false, 5842463604056299, 45⟩, ⟨18, false, 3680604924442637, 44⟩,
    ⟨20, true, 3053930757837711, 42⟩, ⟨22, true, 7784484310555565, 43⟩, ⟨24, false, 4591730807119077, 43⟩,
    ⟨26, false, 2158023638924253, 42⟩],
  [⟨1, true, 5946594140180823, 42⟩, ⟨3, true, 2530668576696977, 42⟩, ⟨5, false, 2691436999302449, 41⟩,
    ⟨7, false, 2197043934250157, 42⟩, ⟨9, true, 4946519841541917, 44⟩, ⟨11, true, 1537582172895609, 44⟩],
  [⟨14, true, 835542942669963, 44⟩, ⟨16, true, 6757192754186325, 45⟩, ⟨18, false, 1102181148569507, 42⟩,
    ⟨20, false, 7660551481063365, 43⟩, ⟨22, true, 8553501035217055, 45⟩, ⟨24, true, 6054776632675831, 43⟩,
    ⟨26, false, 1679168063619731, 46⟩],
  [⟨3, false, 2530668576696977, 41⟩, ⟨7, true, 2197043934250157, 41⟩, ⟨11, false, 1537582172895609, 43⟩],
  [⟨14, false, 835542942669963, 43⟩, ⟨16, false, 2478620922932975, 45⟩, ⟨18, true, 5904970509214491, 43⟩,
    ⟨20, true, 2266835201693971, 43⟩, ⟨22, false, 237602686493693, 38⟩, ⟨24, false, 8968346850377947, 46⟩,
    ⟨26, true, 4117299504729875, 45⟩],
  [⟨1, false, 2782449567691087, 43⟩, ⟨3, true, 5581490963454273, 44⟩, ⟨5, true, 2512007866015619, 41⟩,
    ⟨7, false, 2982173748591805, 42⟩, ⟨9, false, 4946519841541917, 43⟩, ⟨11, true, 4703192528857157, 44⟩],
  [⟨14, true, 5222143391687269, 45⟩, ⟨16, false, 2104245887698307, 43⟩, ⟨18, false, 5995985467943915, 43⟩,
    ⟨20, true, 188746954172213, 38⟩, ⟨22, true, 37042103504513, 36⟩, ⟨24, false, 5163360208455223, 44⟩,
    ⟨26, false, 5947300016902483, 47⟩],
  [⟨1, true, 2040463016306797, 44⟩, ⟨3, true, 2352306424921907, 42⟩, ⟨5, false, 7894881864620517, 43⟩,
    ⟨7, false, 7798516307158215, 43⟩, ⟨9, true, 1545787450481849, 40⟩, ⟨11, false, 3120387350876383, 43⟩],
  [⟨14, false, 879060804267357, 42⟩, ⟨16, true, 6659449518386141, 43⟩, ⟨18, false, 4844796264673949, 45⟩,
    ⟨20, false, 2260404055076699, 41⟩, ⟨22, true, 5672525656796925, 44⟩, ⟨24, true, 4178436950856003, 44⟩,
    ⟨26, false, 4587311389869055, 47⟩],
  [⟨0, false, 1853257208785485, 42⟩, ⟨2, false, 6396779101935341, 43⟩, ⟨4, true, 8915897720731833, 44⟩,
    ⟨6, true, 3473203122378669, 42⟩, ⟨8, false, 5504904756557683, 47⟩, ⟨10, false, 5193300981383377, 45⟩,
    ⟨12, false, 7002645614757785, 49⟩],
  [⟨13, false, 1284634262605369, 47⟩, ⟨15, false, 6654816437199165, 46⟩, ⟨17, false, 1482339442710437, 44⟩,
    ⟨19, true, 359947381795601, 39⟩, ⟨21, true, 6532041369243883, 43⟩, ⟨23, false, 8116865166946143, 43⟩,
    ⟨25, false, 2588608961862465, 41⟩],
  [⟨0, false, 6555430945840019, 46⟩, ⟨2, true, 4933733276378587, 43⟩, ⟨4, true, 5464910708993913, 43⟩,
    ⟨6, false, 2696858139684697, 42⟩, ⟨8, false, 3700608212075477, 43⟩, ⟨10, true, 2139285915626675, 44⟩,
    ⟨12, true, 835542942669963, 44⟩],
  [⟨13, true, 4904967184493227, 47⟩, ⟨15, true, 6654816437199165, 46⟩, ⟨17, false, 137908488229263, 39⟩,
    ⟨19, false, 359947381795601, 39⟩, ⟨21, true, 8580230789410213, 44⟩, ⟨23, true, 8116865166946143, 43⟩,
    ⟨25, false, 347851660823603, 41⟩],
  [⟨0, true, 4117299504729875, 45⟩, ⟨2, true, 8968346850377947, 46⟩, ⟨4, false, 237602686493693, 38⟩,
    ⟨6, false, 2266835201693971, 43⟩, ⟨8, true, 5904970509214491, 43⟩, ⟨10, true, 2478620922932975, 45⟩,
    ⟨12, false, 835542942669963, 43⟩],
  [⟨13, false, 4904967184493227, 46⟩, ⟨17, true, 137908488229263, 38⟩, ⟨21, false, 8580230789410213, 43⟩,
    ⟨25, true, 347851660823603, 40⟩],
  [⟨0, false, 5099803715064125, 50⟩, ⟨2, false, 6802167721436385, 44⟩, ⟨4, true, 3264309669415513, 45⟩,
    ⟨6, true, 292629169493745, 38⟩, ⟨8, false, 5326875496625403, 44⟩, ⟨10, false, 2020334241869847, 42⟩,
    ⟨12, true, 5222143391687269, 45⟩],
  [⟨13, true, 7664011225770667, 46⟩, ⟨15, false, 1852761394447495, 43⟩, ⟨17, false, 53638445662247, 37⟩,
    ⟨19, true, 7050003891720737, 43⟩, ⟨21, true, 3358579144390981, 43⟩, ⟨23, false, 579961877261395, 40⟩,
    ⟨25, false, 582564012019767, 43⟩],
  [⟨0, false, 7092044171898651, 47⟩, ⟨2, true, 5863608388934181, 46⟩, ⟨4, true, 6362390405599491, 43⟩,
    ⟨6, false, 4795907605751929, 43⟩, ⟨8, false, 2462154666507245, 41⟩, ⟨10, true, 1158395660131901, 40⟩,
    ⟨12, false, 879060804267357, 42⟩],
  [⟨13, false, 5160434225352249, 45⟩, ⟨15, true, 2401027521375835, 42⟩, ⟨17, false, 1705114692926939, 42⟩,
    ⟨19, false, 453037221915153, 39⟩, ⟨21, true, 5391171130095123, 43⟩, ⟨23, true, 4726398841870707, 44⟩,
    ⟨25, false, 2052844613783941, 44⟩],
  [⟨14, true, 7320947688155867, 50⟩, ⟨16, false, 8675173230265413, 48⟩, ⟨18, false, 3605592595819485, 43⟩,
    ⟨20, false, 3335557387316459, 42⟩, ⟨22, true, 4564397994771985, 45⟩, ⟨24, true, 8366466935373959, 43⟩,
    ⟨26, true, 3116668610237509, 43⟩],
  [⟨1, false, 4555369356335279, 42⟩, ⟨3, false, 3098316494613681, 41⟩, ⟨5, true, 2870866132589279, 45⟩,
    ⟨7, true, 7217916108317333, 43⟩, ⟨9, true, 4946519841541917, 44⟩, ⟨11, true, 1447136162725279, 48⟩],
  [⟨14, true, 835542942669963, 47⟩, ⟨16, true, 6926860257839475, 45⟩, ⟨18, true, 1361473764510201, 41⟩,
    ⟨20, true, 4506026071659967, 46⟩, ⟨22, false, 4462791904624281, 42⟩, ⟨24, false, 7549472256509763, 44⟩,
    ⟨26, true, 4797514670443987, 45⟩],
  [⟨1, false, 2782449567691087, 43⟩, ⟨3, true, 7331928825060771, 43⟩, ⟨5, true, 2512007866015619, 41⟩,
    ⟨7, false, 2823828239817019, 43⟩, ⟨9, false, 4946519841541917, 43⟩, ⟨11, false, 1628028183065939, 44⟩],
  [⟨14, false, 7519886484029667, 47⟩, ⟨16, false, 1710506626503225, 42⟩, ⟨18, false, 6483065521803579, 44⟩,
    ⟨20, true, 7097298222105869, 43⟩, ⟨22, true, 3393604275222149, 42⟩, ⟨24, false, 2280040504420949, 43⟩,
    ⟨26, false, 3957930638634121, 45⟩],
  [⟨1, true, 2782449567691087, 43⟩, ⟨3, true, 5581490963454273, 44⟩, ⟨5, false, 2512007866015619, 41⟩,
    ⟨7, false, 2982173748591805, 42⟩, ⟨9, true, 4946519841541917, 43⟩, ⟨11, true, 4703192528857157, 44⟩],
  [⟨14, true, 5222143391687269, 45⟩, ⟨16, true, 2020334241869847, 42⟩, ⟨18, false, 5326875496625403, 44⟩,
    ⟨20, false, 292629169493745, 38⟩, ⟨22, true, 3264309669415513, 45⟩, ⟨24, true, 6802167721436385, 44⟩,
    ⟨26, false, 5099803715064125, 50⟩],
  [⟨3, false, 5581490963454273, 43⟩, ⟨7, true, 2982173748591805, 41⟩, ⟨11, false, 4703192528857157, 43⟩],
  [⟨14, false, 5222143391687269, 44⟩, ⟨16, false, 1936422596041387, 43⟩, ⟨18, true, 8659423216256617, 43⟩,
    ⟨20, true, 6648461780578049, 44⟩, ⟨22, false, 2778733332965771, 42⟩, ⟨24, false, 3277615025962323, 45⟩,
    ⟨26, true, 6584775481285499, 47⟩],
  [⟨1, false, 2040463016306797, 44⟩, ⟨3, true, 3507512454441835, 45⟩, ⟨5, true, 7894881864620517, 43⟩,
    ⟨7, false, 1032544671802251, 41⟩, ⟨9, false, 1545787450481849, 40⟩, ⟨11, true, 1955894969933385, 41⟩],
  [⟨14, true, 8738386608756697, 44⟩, ⟨16, false, 2361513461172377, 42⟩, ⟨18, false, 7448224150088129, 43⟩,
    ⟨20, true, 5717385330017771, 43⟩, ⟨22, true, 5442407675066159, 44⟩, ⟨24, false, 5079258875749683, 45⟩,
    ⟨26, false, 7989856365665777, 49⟩],
  [⟨0, true, 8917867696859615, 45⟩, ⟨2, true, 7627788917789073, 43⟩, ⟨4, true, 7737717135697017, 44⟩,
    ⟨6, false, 4033384788921945, 43⟩, ⟨8, false, 1632768353030599, 42⟩, ⟨10, false, 5694926644357907, 47⟩,
    ⟨12, true, 7320947688155867, 50⟩],
  [⟨13, true, 1343026729087431, 48⟩, ⟨15, false, 3024916562363257, 47⟩, ⟨17, false, 2445577191265597, 43⟩,
    ⟨19, false, 4468312325738495, 43⟩, ⟨21, true, 5959451340960911, 44⟩, ⟨23, true, 5797017657900563, 42⟩,
    ⟨25, true, 6762779929586391, 43⟩],
  [⟨0, true, 738523746678033, 42⟩, ⟨2, false, 2462019631707465, 44⟩, ⟨4, false, 8326807428214425, 43⟩,
    ⟨6, false, 5826042911670785, 44⟩, ⟨8, true, 7219186506692107, 44⟩, ⟨10, true, 3308516321236427, 44⟩,
    ⟨12, true, 835542942669963, 47⟩],
  [⟨13, true, 4904967184493227, 50⟩, ⟨15, true, 4083637359190397, 45⟩, ⟨17, true, 6373493825241631, 44⟩,
    ⟨19, false, 5163383131964483, 45⟩, ⟨21, false, 4755883519862169, 42⟩, ⟨23, false, 3477170148854983, 43⟩,
    ⟨25, true, 7183311835726939, 44⟩],
  [⟨0, false, 5260949001008509, 46⟩, ⟨2, false, 3702723460524855, 43⟩, ⟨4, true, 5723793438441025, 44⟩,
    ⟨6, true, 8306737735204787, 43⟩, ⟨8, true, 5824957358683129, 49⟩, ⟨10, false, 2723901118431551, 43⟩,
    ⟨12, false, 7519886484029667, 47⟩],
  [⟨13, false, 321195, 13⟩, ⟨15, false, 1852761394447495, 43⟩, ⟨17, false, 3920844403810431, 45⟩,
    ⟨19, true, 7050003891720737, 43⟩, ⟨21, true, 163176613906851, 38⟩, ⟨23, false, 579961877261395, 40⟩,
    ⟨25, false, 8800997098276229, 45⟩],
  [⟨0, false, 5947300016902483, 47⟩, ⟨2, true, 5163360208455223, 44⟩, ⟨4, true, 37042103504513, 36⟩,
    ⟨6, false, 188746954172213, 38⟩, ⟨8, false, 5995985467943915, 43⟩, ⟨10, true, 2104245887698307, 43⟩,
    ⟨12, true, 5222143391687269, 45⟩],
  [⟨13, true, 7664011225770667, 46⟩, ⟨15, true, 1852761394447495, 43⟩, ⟨17, false, 53638445662247, 37⟩,
    ⟨19, false, 7050003891720737, 43⟩, ⟨21, true, 3358579144390981, 43⟩, ⟨23, true, 579961877261395, 40⟩,
    ⟨25, false, 582564012019767, 43⟩],
  [⟨0, true, 6584775481285499, 47⟩, ⟨2, true, 3277615025962323, 45⟩, ⟨4, false, 2778733332965771, 42⟩,
    ⟨6, false, 6648461780578049, 44⟩, ⟨8, true, 8659423216256617, 43⟩, ⟨10, true, 1936422596041387, 43⟩,
    ⟨12, false, 5222143391687269, 44⟩],
  [⟨13, false, 7664011225770667, 45⟩, ⟨17, true, 53638445662247, 36⟩, ⟨21, false, 3358579144390981, 42⟩,
    ⟨25, true, 582564012019767, 42⟩],
  [⟨0, true, 8116299049810435, 51⟩, ⟨2, false, 3104709610214707, 44⟩, ⟨4, false, 3219694958671793, 45⟩,
    ⟨6, true, 4060069248020477, 42⟩, ⟨8, true, 4756781799089451, 45⟩, ⟨10, false, 2800896969274149, 41⟩,
    ⟨12, true, 8738386608756697, 44⟩],
  [⟨13, true, 3206111362780729, 43⟩, ⟨15, false, 2401027521375835, 42⟩, ⟨17, false, 6910983317827477, 44⟩,
    ⟨19, true, 453037221915153, 39⟩, ⟨21, true, 2651974317373679, 44⟩, ⟨23, false, 4726398841870707, 44⟩,
    ⟨25, false, 8877165897444069, 49⟩],
  [⟨14, true, 6366041467961623, 52⟩, ⟨16, true, 6314581875091151, 48⟩, ⟨18, false, 3504575993273641, 47⟩,
    ⟨20, false, 4431156006563367, 43⟩, ⟨22, false, 1209428004429061, 40⟩, ⟨24, false, 899128718388309, 40⟩,
    ⟨26, false, 5643609040942345, 45⟩],
  [⟨1, true, 570758885680223, 40⟩, ⟨3, true, 382182389748267, 38⟩, ⟨5, true, 2870866132589279, 41⟩,
    ⟨7, true, 7442238912414947, 44⟩, ⟨11, false, 1447136162725279, 47⟩],
  [⟨14, false, 278514314223321, 45⟩, ⟨16, true, 1180295677587131, 47⟩, ⟨18, true, 239039287212443, 39⟩,
    ⟨20, true, 2775567695299071, 41⟩, ⟨22, true, 8534324536739491, 43⟩, ⟨24, false, 4693748753069949, 45⟩,
    ⟨26, false, 6823065400007691, 45⟩],
  [⟨1, true, 4544667627228775, 43⟩, ⟨3, true, 1307436052081441, 46⟩, ⟨5, false, 3050295265876109, 41⟩,
    ⟨7, false, 5469517782262403, 42⟩, ⟨9, false, 4946519841541917, 44⟩, ⟨11, true, 1447136162725279, 48⟩],
  [⟨14, true, 278514314223321, 47⟩, ⟨16, false, 3610967088618129, 44⟩, ⟨18, false, 2317630913359973, 41⟩,
    ⟨20, false, 2916381010038445, 41⟩, ⟨22, true, 1565037090036283, 45⟩, ⟨24, true, 4948173316522369, 43⟩,
    ⟨26, true, 4051101459127409, 46⟩],
  [⟨1, false, 7048872238150753, 45⟩, ⟨3, false, 7495358331570951, 43⟩, ⟨5, true, 8612598397767837, 45⟩,
    ⟨7, true, 6881431902170913, 42⟩, ⟨9, true, 7419779762312875, 43⟩, ⟨11, true, 1537582172895609, 44⟩],
  [⟨14, true, 3620686084903173, 46⟩, ⟨16, true, 5226496797315515, 43⟩, ⟨18, true, 782003525896355, 39⟩,
    ⟨20, true, 4568225818047911, 43⟩, ⟨22, false, 7178467822953369, 43⟩, ⟨24, false, 667033203025355, 41⟩,
    ⟨26, true, 7729519636281667, 47⟩],
  [⟨1, false, 2040463016306797, 44⟩, ⟨3, true, 2352306424921907, 42⟩, ⟨5, true, 7894881864620517, 43⟩,
    ⟨7, false, 7798516307158215, 43⟩, ⟨9, false, 1545787450481849, 40⟩, ⟨11, false, 3120387350876383, 43⟩],
  [⟨14, false, 879060804267357, 42⟩, ⟨16, false, 1158395660131901, 40⟩, ⟨18, false, 2462154666507245, 41⟩,
    ⟨20, true, 4795907605751929, 43⟩, ⟨22, true, 6362390405599491, 43⟩, ⟨24, false, 5863608388934181, 46⟩,
    ⟨26, false, 7092044171898651, 47⟩],
  [⟨1, true, 2040463016306797, 44⟩, ⟨3, true, 3507512454441835, 45⟩, ⟨5, false, 7894881864620517, 43⟩,
    ⟨7, false, 1032544671802251, 41⟩, ⟨9, true, 1545787450481849, 40⟩, ⟨11, true, 1955894969933385, 41⟩],
  [⟨14, true, 8738386608756697, 44⟩, ⟨16, true, 2800896969274149, 41⟩, ⟨18, true, 4756781799089451, 45⟩,
    ⟨20, false, 4060069248020477, 42⟩, ⟨22, false, 3219694958671793, 45⟩, ⟨24, true, 3104709610214707, 44⟩,
    ⟨26, true, 8116299049810435, 51⟩],
  [⟨3, false, 3507512454441835, 44⟩, ⟨7, true, 1032544671802251, 40⟩, ⟨11, false, 1955894969933385, 40⟩],
  [⟨14, false, 8738386608756697, 43⟩, ⟨16, false, 3240280477375921, 42⟩, ⟨18, true, 3129514350157883, 42⟩,
    ⟨20, true, 4805506332046365, 44⟩, ⟨22, false, 7665120391460525, 45⟩, ⟨24, false, 4520641378718923, 47⟩,
    ⟨26, true, 372548850200823, 45⟩],
  [⟨0, false, 6025712149247963, 46⟩, ⟨2, false, 4663613644318341, 43⟩, ⟨4, false, 7479910638307319, 43⟩,
    ⟨6, false, 2092330357661127, 42⟩, ⟨8, false, 6769112534953197, 47⟩, ⟨10, true, 2862217018148793, 47⟩,
    ⟨12, true, 6366041467961623, 52⟩],
  [⟨13, true, 2335698659282489, 51⟩, ⟨15, true, 7259799749671817, 49⟩, ⟨17, false, 3688875254378645, 47⟩,
    ⟨19, false, 7347891380103303, 44⟩, ⟨21, false, 4481697040368961, 42⟩, ⟨23, false, 1019376856176143, 40⟩,
    ⟨25, false, 5159722112131203, 44⟩],
  [⟨0, false, 2952505811117817, 44⟩, ⟨2, false, 5928350546941465, 44⟩, ⟨4, true, 7222104140917621, 44⟩,
    ⟨6, true, 8218045504244199, 43⟩, ⟨8, true, 3688606239495773, 43⟩, ⟨10, true, 5665419252418229, 48⟩,
    ⟨12, false, 278514314223321, 45⟩],
  [⟨13, false, 6539956245990969, 50⟩, ⟨15, true, 4839866499781211, 49⟩, ⟨17, true, 5352263789328525, 44⟩,
    ⟨19, true, 8142258015790147, 43⟩, ⟨21, true, 5983668410257467, 43⟩, ⟨23, false, 1719510233195991, 42⟩,
    ⟨25, false, 4182918873520789, 43⟩],
  [⟨0, false, 1627315808578635, 54⟩, ⟨2, true, 4195185089324465, 43⟩, ⟨4, true, 2357877678877807, 42⟩,
    ⟨6, false, 5305024048408807, 43⟩, ⟨8, false, 3649099746420913, 42⟩, ⟨10, false, 1831302512256283, 43⟩,
    ⟨12, true, 278514314223321, 47⟩],
  [⟨13, true, 6539956245990969, 52⟩, ⟨15, false, 8772258030853445, 46⟩, ⟨17, false, 2931439403642539, 42⟩,
    ⟨19, false, 3425706116399513, 42⟩, ⟨21, true, 7056197258933743, 44⟩, ⟨23, true, 6916190615246965, 43⟩,
    ⟨25, true, 2365051822629279, 45⟩],
  [⟨0, true, 5267305703385769, 46⟩, ⟨2, false, 246230814399805, 42⟩, ⟨4, false, 7577652076976127, 43⟩,
    ⟨6, false, 750428421698995, 41⟩, ⟨8, true, 3603592267056201, 42⟩, ⟨10, true, 2277601815343917, 42⟩,
    ⟨12, true, 3620686084903173, 46⟩],
  [⟨13, true, 2656857224933831, 46⟩, ⟨15, true, 5898587296608351, 44⟩, ⟨17, true, 3421544954118843, 42⟩,
    ⟨19, false, 6354933085494749, 48⟩, ⟨21, false, 1093718784310763, 40⟩, ⟨23, false, 1138247798577903, 42⟩,
    ⟨25, true, 3217972637823475, 44⟩],
  [⟨0, false, 4587311389869055, 47⟩, ⟨2, false, 4178436950856003, 44⟩, ⟨4, true, 5672525656796925, 44⟩,
    ⟨6, true, 2260404055076699, 41⟩, ⟨8, false, 4844796264673949, 45⟩, ⟨10, false, 6659449518386141, 43⟩,
    ⟨12, false, 879060804267357, 42⟩],
  [⟨13, false, 5160434225352249, 45⟩, ⟨15, false, 2401027521375835, 42⟩, ⟨17, false, 1705114692926939, 42⟩,
    ⟨19, true, 453037221915153, 39⟩, ⟨21, true, 5391171130095123, 43⟩, ⟨23, false, 4726398841870707, 44⟩,
    ⟨25, false, 2052844613783941, 44⟩],
  [⟨0, false, 7989856365665777, 49⟩, ⟨2, true, 5079258875749683, 45⟩, ⟨4, true, 5442407675066159, 44⟩,
    ⟨6, false, 5717385330017771, 43⟩, ⟨8, false, 7448224150088129, 43⟩, ⟨10, true, 2361513461172377, 42⟩,
    ⟨12, true, 8738386608756697, 44⟩],
  [⟨13, true, 3206111362780729, 43⟩, ⟨15, true, 2401027521375835, 42⟩, ⟨17, false, 6910983317827477, 44⟩,
    ⟨19, false, 453037221915153, 39⟩, ⟨21, true, 2651974317373679, 44⟩, ⟨23, true, 4726398841870707, 44⟩,
    ⟨25, false, 8877165897444069, 49⟩],
  [⟨0, true, 372548850200823, 45⟩, ⟨2, true, 4520641378718923, 47⟩, ⟨4, false, 7665120391460525, 45⟩,
    ⟨6, false, 4805506332046365, 44⟩, ⟨8, true, 3129514350157883, 42⟩, ⟨10, true, 3240280477375921, 42⟩,
    ⟨12, false, 8738386608756697, 43⟩],
  [⟨13, false, 3206111362780729, 42⟩, ⟨17, true, 6910983317827477, 43⟩, ⟨21, false, 2651974317373679, 43⟩,
    ⟨25, true, 8877165897444069, 48⟩]]

/-- The array `s2t14`: so3/_tensor_conversion_lut.npz. -/
def shippedS2t14 : List (List ShippedEntry) := [
  [⟨1, false, 8237637123266639, 65⟩, ⟨6, true, 8237637123266639, 65⟩, ⟨15, false, 8237637123266639, 65⟩,
    ⟨28, true, 8237637123266639, 65⟩, ⟨45, false, 8237637123266639, 65⟩, ⟨66, true, 8237637123266639, 65⟩,
    ⟨91, false, 8237637123266639, 65⟩],
  [⟨4, false, 1556767087068361, 64⟩, ⟨11, true, 1556767087068361, 64⟩, ⟨22, false, 1556767087068361, 64⟩,
    ⟨37, true, 1556767087068361, 64⟩, ⟨56, false, 1556767087068361, 64⟩, ⟨79, true, 1556767087068361, 64⟩,
    ⟨106, false, 1556767087068361, 64⟩],
  [⟨1, true, 5084380015568529, 65⟩, ⟨6, false, 1694793338522843, 64⟩, ⟨8, false, 1694793338522843, 65⟩,
    ⟨15, true, 1694793338522843, 65⟩, ⟨17, true, 1694793338522843, 65⟩, ⟨30, false, 1694793338522843, 65⟩,
    ⟨45, false, 1694793338522843, 65⟩, ⟨47, true, 1694793338522843, 65⟩, ⟨66, true, 1694793338522843, 64⟩,
    ⟨68, false, 1694793338522843, 65⟩, ⟨91, false, 5084380015568529, 65⟩, ⟨93, true, 1694793338522843, 65⟩],
  [⟨4, true, 6332619396941187, 66⟩, ⟨11, false, 8059697414288783, 67⟩, ⟨13, false, 2302770689796795, 66⟩,
    ⟨22, true, 6908312069390385, 68⟩, ⟨24, true, 2302770689796795, 66⟩, ⟨37, true, 2302770689796795, 68⟩,
    ⟨39, false, 2302770689796795, 66⟩, ⟨56, false, 1439231681122997, 65⟩, ⟨58, true, 2302770689796795, 66⟩,
    ⟨79, true, 5181234052042789, 66⟩, ⟨81, false, 2302770689796795, 66⟩, ⟨106, false, 233875148182487, 61⟩,
    ⟨108, true, 2302770689796795, 66⟩],
  [⟨1, false, 233875148182487, 61⟩, ⟨6, true, 1439231681122997, 65⟩, ⟨8, true, 2302770689796795, 65⟩,
    ⟨15, false, 460554137959359, 68⟩, ⟨17, false, 1381662413878077, 65⟩, ⟨19, false, 460554137959359, 64⟩,
    ⟨28, false, 3223878965715513, 68⟩, ⟨30, true, 460554137959359, 65⟩, ⟨32, true, 460554137959359, 64⟩,
    ⟨45, false, 460554137959359, 68⟩, ⟨47, true, 460554137959359, 65⟩, ⟨49, false, 460554137959359, 64⟩,
    ⟨66, true, 1439231681122997, 65⟩, ⟨68, false, 1381662413878077, 65⟩, ⟨70, true, 460554137959359, 64⟩,
    ⟨91, false, 233875148182487, 61⟩, ⟨93, true, 2302770689796795, 65⟩, ⟨95, false, 460554137959359, 64⟩],
  [⟨4, false, 5675757532035463, 66⟩, ⟨11, true, 7567676709380617, 68⟩, ⟨13, true, 7567676709380617, 67⟩,
    ⟨22, true, 1681705935417915, 69⟩, ⟨24, false, 4204264838544787, 67⟩, ⟨26, false, 1681705935417915, 66⟩,
    ⟨37, false, 5045117806253745, 69⟩, ⟨39, true, 1681705935417915, 68⟩, ⟨41, true, 1681705935417915, 66⟩,
    ⟨56, false, 5045117806253745, 69⟩, ⟨58, true, 5045117806253745, 68⟩, ⟨60, false, 1681705935417915, 66⟩,
    ⟨79, true, 3573625112763069, 66⟩, ⟨81, false, 2942985386981351, 66⟩, ⟨83, true, 1681705935417915, 66⟩,
    ⟨106, false, 8198316435162335, 66⟩, ⟨108, true, 2312345661199633, 65⟩, ⟨110, false, 1681705935417915, 66⟩],
  [⟨1, true, 43617940041617, 59⟩, ⟨6, false, 3435751584816601, 68⟩, ⟨8, false, 2362079214561413, 65⟩,
    ⟨15, false, 3435751584816601, 69⟩, ⟨17, true, 5153627377224901, 68⟩, ⟨19, true, 3435751584816601, 66⟩,
    ⟨30, true, 3435751584816601, 69⟩, ⟨32, false, 3435751584816601, 67⟩, ⟨34, false, 3435751584816601, 67⟩,
    ⟨45, true, 3435751584816601, 69⟩, ⟨47, false, 3435751584816601, 69⟩, ⟨51, true, 3435751584816601, 67⟩,
    ⟨66, true, 3435751584816601, 68⟩, ⟨68, false, 5153627377224901, 68⟩, ⟨70, true, 3435751584816601, 67⟩,
    ⟨72, false, 3435751584816601, 67⟩, ⟨91, false, 43617940041617, 59⟩, ⟨93, true, 2362079214561413, 65⟩,
    ⟨95, false, 3435751584816601, 66⟩, ⟨97, true, 3435751584816601, 67⟩],
  [⟨4, true, 4663373301154519, 66⟩, ⟨11, false, 6783088438042937, 70⟩, ⟨13, false, 8478860547553671, 67⟩,
    ⟨22, false, 6783088438042937, 70⟩, ⟨24, true, 6783088438042937, 69⟩, ⟨26, true, 6783088438042937, 67⟩,
    ⟨37, false, 5814075804036803, 71⟩, ⟨39, true, 4845063170030669, 69⟩, ⟨41, false, 5814075804036803, 68⟩,
    ⟨43, false, 7752101072049071, 68⟩, ⟨56, true, 4845063170030669, 70⟩, ⟨58, false, 7752101072049071, 72⟩,
    ⟨60, false, 7752101072049071, 70⟩, ⟨62, true, 7752101072049071, 68⟩, ⟨79, true, 1998588557637651, 66⟩,
    ⟨81, false, 287675625720571, 63⟩, ⟨83, true, 4845063170030669, 67⟩, ⟨85, false, 7752101072049071, 68⟩,
    ⟨106, false, 8660550416429821, 66⟩, ⟨108, true, 3330980929396085, 65⟩, ⟨110, false, 8721113706055205, 67⟩,
    ⟨112, true, 7752101072049071, 68⟩],
  [⟨1, false, 8018111650624269, 67⟩, ⟨6, false, 3289481702820213, 71⟩, ⟨8, true, 8223704257050533, 67⟩,
    ⟨15, true, 1420458008036001, 69⟩, ⟨17, false, 4784700658647583, 72⟩, ⟨19, false, 2018545590366949, 65⟩,
    ⟨28, true, 784989951809369, 68⟩, ⟨30, false, 2990437911654739, 69⟩, ⟨32, true, 3588525493985687, 69⟩,
    ⟨34, true, 3588525493985687, 66⟩, ⟨45, true, 1420458008036001, 69⟩, ⟨47, false, 2990437911654739, 69⟩,
    ⟨49, true, 2990437911654739, 68⟩, ⟨51, false, 4784700658647583, 68⟩, ⟨53, false, 4784700658647583, 67⟩,
    ⟨66, false, 3289481702820213, 71⟩, ⟨68, false, 4784700658647583, 72⟩, ⟨70, true, 3588525493985687, 69⟩,
    ⟨72, false, 4784700658647583, 68⟩, ⟨74, true, 4784700658647583, 67⟩, ⟨91, false, 8018111650624269, 67⟩,
    ⟨93, true, 8223704257050533, 67⟩, ⟨95, false, 2018545590366949, 65⟩, ⟨97, true, 3588525493985687, 66⟩,
    ⟨99, false, 4784700658647583, 67⟩],
  [⟨4, false, 6895785654607273, 67⟩, ⟨11, false, 5015116839714381, 70⟩, ⟨13, true, 7522675259571571, 67⟩,
    ⟨22, true, 8024186943543009, 73⟩, ⟨24, true, 8024186943543009, 71⟩, ⟨26, false, 8024186943543009, 67⟩,
    ⟨37, true, 6018140207657257, 71⟩, ⟨39, false, 8024186943543009, 71⟩, ⟨43, true, 8024186943543009, 67⟩,
    ⟨56, true, 5817535534068681, 70⟩, ⟨58, false, 4413302818948655, 69⟩, ⟨60, true, 6419349554834407, 69⟩,
    ⟨62, false, 6419349554834407, 69⟩, ⟨64, false, 6419349554834407, 67⟩, ⟨79, true, 5516628523685819, 69⟩,
    ⟨81, false, 8425396290720159, 69⟩, ⟨83, true, 6419349554834407, 68⟩, ⟨85, false, 4814512166125805, 67⟩,
    ⟨87, true, 6419349554834407, 67⟩, ⟨106, false, 8964521350989455, 66⟩, ⟨108, true, 1034367848191091, 63⟩,
    ⟨110, false, 1805442062297177, 64⟩, ⟨112, true, 2808465430240053, 65⟩, ⟨114, false, 6419349554834407, 67⟩],
  [⟨1, true, 5202837866997573, 67⟩, ⟨6, true, 1600873189845407, 68⟩, ⟨8, false, 1500818615480069, 65⟩,
    ⟨15, true, 2910678526991649, 71⟩, ⟨17, false, 1964708005719363, 68⟩, ⟨19, true, 3492814232389979, 66⟩,
    ⟨30, false, 2910678526991649, 71⟩, ⟨32, true, 2328542821593319, 68⟩, ⟨34, false, 8149899875576617, 67⟩,
    ⟨45, false, 2910678526991649, 71⟩, ⟨47, true, 2910678526991649, 71⟩, ⟨51, false, 2328542821593319, 68⟩,
    ⟨53, true, 2328542821593319, 65⟩, ⟨66, false, 1600873189845407, 68⟩, ⟨68, true, 1964708005719363, 68⟩,
    ⟨70, false, 2328542821593319, 68⟩, ⟨72, true, 2328542821593319, 68⟩, ⟨76, false, 2328542821593319, 65⟩,
    ⟨91, false, 5202837866997573, 67⟩, ⟨93, true, 1500818615480069, 65⟩, ⟨95, false, 3492814232389979, 66⟩,
    ⟨97, true, 8149899875576617, 67⟩, ⟨99, false, 2328542821593319, 65⟩, ⟨101, true, 2328542821593319, 65⟩],
  [⟨4, true, 8447355944020915, 68⟩, ⟨11, true, 3583726764130085, 69⟩, ⟨13, false, 5119609663042979, 67⟩,
    ⟨22, true, 5688455181158865, 71⟩, ⟨24, false, 5005840559419801, 69⟩, ⟨26, true, 6371069802897929, 67⟩,
    ⟨37, true, 3413073108695319, 71⟩, ⟨39, false, 1137691036231773, 68⟩, ⟨41, true, 7281222631883347, 69⟩,
    ⟨43, false, 4095687730434383, 66⟩, ⟨56, true, 4095687730434383, 72⟩, ⟨58, false, 2730458486956255, 70⟩,
    ⟨60, true, 7281222631883347, 70⟩, ⟨62, false, 2730458486956255, 67⟩, ⟨64, true, 2730458486956255, 65⟩,
    ⟨79, false, 3754380419564851, 70⟩, ⟨81, true, 2730458486956255, 70⟩, ⟨85, false, 7281222631883347, 70⟩,
    ⟨87, true, 7281222631883347, 68⟩, ⟨89, false, 7281222631883347, 66⟩, ⟨106, false, 2287825568172331, 64⟩,
    ⟨108, true, 36663871284813, 58⟩, ⟨110, false, 4778302352173447, 65⟩, ⟨112, true, 4778302352173447, 65⟩,
    ⟨114, false, 1137691036231773, 63⟩, ⟨116, true, 7281222631883347, 66⟩],
  [⟨1, false, 2562877263073425, 67⟩, ⟨6, false, 2365732858221623, 69⟩, ⟨8, true, 6308620955257661, 68⟩,
    ⟨15, false, 1075333117373465, 69⟩, ⟨17, true, 215066623474693, 65⟩, ⟨19, false, 8029153943055205, 68⟩,
    ⟨28, false, 6690961619212671, 72⟩, ⟨30, true, 7646813279100195, 71⟩, ⟨32, false, 5352769295370137, 69⟩,
    ⟨34, true, 5352769295370137, 67⟩, ⟨45, false, 1075333117373465, 69⟩, ⟨47, true, 7646813279100195, 71⟩,
    ⟨49, false, 7646813279100195, 70⟩, ⟨51, true, 4588087967460117, 68⟩, ⟨53, false, 7646813279100195, 67⟩,
    ⟨66, false, 2365732858221623, 69⟩, ⟨68, true, 215066623474693, 65⟩, ⟨70, false, 5352769295370137, 69⟩,
    ⟨72, true, 4588087967460117, 68⟩, ⟨74, false, 4588087967460117, 67⟩, ⟨76, true, 1529362655820039, 64⟩,
    ⟨91, false, 2562877263073425, 67⟩, ⟨93, true, 6308620955257661, 68⟩, ⟨95, false, 8029153943055205, 68⟩,
    ⟨97, true, 5352769295370137, 67⟩, ⟨99, false, 7646813279100195, 67⟩, ⟨101, true, 1529362655820039, 64⟩,
    ⟨103, false, 1529362655820039, 63⟩],
  [⟨4, false, 1421628520728007, 67⟩, ⟨11, false, 6203469908631303, 71⟩, ⟨13, true, 7237381560069853, 69⟩,
    ⟨22, false, 3446372171461835, 71⟩, ⟨24, true, 4824921040046569, 70⟩, ⟨26, false, 4824921040046569, 68⟩,
    ⟨37, false, 3446372171461835, 71⟩, ⟨39, true, 3446372171461835, 70⟩, ⟨41, false, 2067823302877101, 68⟩,
    ⟨43, true, 3446372171461835, 67⟩, ⟨56, false, 6203469908631303, 71⟩, ⟨58, true, 4824921040046569, 70⟩,
    ⟨60, false, 2067823302877101, 68⟩, ⟨62, true, 2067823302877101, 67⟩, ⟨64, false, 689274434292367, 64⟩,
    ⟨79, false, 1421628520728007, 67⟩, ⟨81, true, 7237381560069853, 69⟩, ⟨83, false, 4824921040046569, 68⟩,
    ⟨85, true, 3446372171461835, 67⟩, ⟨87, false, 689274434292367, 64⟩, ⟨89, true, 689274434292367, 63⟩,
    ⟨106, false, 2310146346183011, 64⟩, ⟨108, true, 621962477818503, 62⟩, ⟨110, false, 2714018085026195, 64⟩,
    ⟨112, true, 6031151300058211, 65⟩, ⟨114, false, 3446372171461835, 64⟩, ⟨116, true, 2067823302877101, 63⟩,
    ⟨118, false, 689274434292367, 61⟩],
  [⟨0, true, 3156260782866503, 65⟩, ⟨3, true, 242789290989731, 65⟩, ⟨5, false, 1699525036928117, 64⟩,
    ⟨10, true, 4237776715457123, 71⟩, ⟨12, false, 4944072834699977, 69⟩, ⟨14, true, 3708054626024983, 65⟩,
    ⟨21, true, 4708640794952359, 72⟩, ⟨23, false, 6592097112933303, 71⟩, ⟨25, true, 6592097112933303, 69⟩,
    ⟨27, false, 2060030347791657, 64⟩, ⟨36, true, 4708640794952359, 72⟩, ⟨38, false, 4708640794952359, 71⟩,
    ⟨40, true, 5650368953942831, 70⟩, ⟨42, false, 4708640794952359, 68⟩, ⟨44, true, 4708640794952359, 65⟩,
    ⟨55, true, 4237776715457123, 71⟩, ⟨57, false, 6592097112933303, 71⟩, ⟨59, true, 5650368953942831, 70⟩,
    ⟨61, false, 5650368953942831, 69⟩, ⟨63, true, 7533825271923775, 68⟩, ⟨65, false, 5650368953942831, 65⟩,
    ⟨78, true, 242789290989731, 65⟩, ⟨80, false, 4944072834699977, 69⟩, ⟨82, true, 6592097112933303, 69⟩,
    ⟨84, false, 4708640794952359, 68⟩, ⟨86, true, 7533825271923775, 68⟩, ⟨88, false, 7533825271923775, 67⟩,
    ⟨90, true, 7533825271923775, 65⟩, ⟨105, true, 3156260782866503, 65⟩, ⟨107, false, 1699525036928117, 64⟩,
    ⟨109, true, 3708054626024983, 65⟩, ⟨111, false, 2060030347791657, 64⟩, ⟨113, true, 4708640794952359, 65⟩,
    ⟨115, false, 5650368953942831, 65⟩, ⟨117, true, 7533825271923775, 65⟩, ⟨119, false, 7533825271923775, 64⟩],
  [⟨2, false, 2310146346183011, 64⟩, ⟨7, false, 1421628520728007, 67⟩, ⟨9, true, 621962477818503, 62⟩,
    ⟨16, false, 6203469908631303, 71⟩, ⟨18, true, 7237381560069853, 69⟩, ⟨20, false, 2714018085026195, 64⟩,
    ⟨29, false, 3446372171461835, 71⟩, ⟨31, true, 4824921040046569, 70⟩, ⟨33, false, 4824921040046569, 68⟩,
    ⟨35, true, 6031151300058211, 65⟩, ⟨46, false, 3446372171461835, 71⟩, ⟨48, true, 3446372171461835, 70⟩,
    ⟨50, false, 2067823302877101, 68⟩, ⟨52, true, 3446372171461835, 67⟩, ⟨54, false, 3446372171461835, 64⟩,
    ⟨67, false, 6203469908631303, 71⟩, ⟨69, true, 4824921040046569, 70⟩, ⟨71, false, 2067823302877101, 68⟩,
    ⟨73, true, 2067823302877101, 67⟩, ⟨75, false, 689274434292367, 64⟩, ⟨77, true, 2067823302877101, 63⟩,
    ⟨92, false, 1421628520728007, 67⟩, ⟨94, true, 7237381560069853, 69⟩, ⟨96, false, 4824921040046569, 68⟩,
    ⟨98, true, 3446372171461835, 67⟩, ⟨100, false, 689274434292367, 64⟩, ⟨102, true, 689274434292367, 63⟩,
    ⟨104, false, 689274434292367, 61⟩],
  [⟨0, false, 8970070420756987, 66⟩, ⟨3, false, 1971444048518019, 68⟩, ⟨5, true, 2365732858221623, 64⟩,
    ⟨10, false, 645199870424079, 69⟩, ⟨12, true, 4588087967460117, 69⟩, ⟨14, false, 5018221214409503, 65⟩,
    ⟨21, false, 7646813279100195, 75⟩, ⟨23, true, 1529362655820039, 70⟩, ⟨25, false, 5352769295370137, 69⟩,
    ⟨27, true, 5352769295370137, 65⟩, ⟨36, true, 7646813279100195, 75⟩, ⟨40, false, 1529362655820039, 70⟩,
    ⟨42, true, 1529362655820039, 67⟩, ⟨44, false, 2867554979662573, 64⟩, ⟨55, true, 645199870424079, 69⟩,
    ⟨57, false, 1529362655820039, 70⟩, ⟨59, true, 1529362655820039, 70⟩, ⟨63, false, 1529362655820039, 67⟩,
    ⟨65, true, 1529362655820039, 63⟩, ⟨78, true, 1971444048518019, 68⟩, ⟨80, false, 4588087967460117, 69⟩,
    ⟨82, true, 5352769295370137, 69⟩, ⟨84, false, 1529362655820039, 67⟩, ⟨86, true, 1529362655820039, 67⟩,
    ⟨90, false, 1529362655820039, 63⟩, ⟨105, true, 8970070420756987, 66⟩, ⟨107, false, 2365732858221623, 64⟩,
    ⟨109, true, 5018221214409503, 65⟩, ⟨111, false, 5352769295370137, 65⟩, ⟨113, true, 2867554979662573, 64⟩,
    ⟨115, false, 1529362655820039, 63⟩, ⟨117, true, 1529362655820039, 63⟩],
  [⟨2, true, 2287825568172331, 64⟩, ⟨7, true, 3754380419564851, 70⟩, ⟨9, false, 36663871284813, 58⟩,
    ⟨16, false, 4095687730434383, 72⟩, ⟨18, false, 2730458486956255, 70⟩, ⟨20, true, 4778302352173447, 65⟩,
    ⟨29, false, 3413073108695319, 71⟩, ⟨31, true, 2730458486956255, 70⟩, ⟨35, false, 4778302352173447, 65⟩,
    ⟨46, false, 5688455181158865, 71⟩, ⟨48, true, 1137691036231773, 68⟩, ⟨50, false, 7281222631883347, 70⟩,
    ⟨52, true, 7281222631883347, 70⟩, ⟨54, true, 1137691036231773, 63⟩, ⟨67, false, 3583726764130085, 69⟩,
    ⟨69, true, 5005840559419801, 69⟩, ⟨71, false, 7281222631883347, 69⟩, ⟨73, true, 2730458486956255, 67⟩,
    ⟨75, false, 7281222631883347, 68⟩, ⟨77, false, 7281222631883347, 66⟩, ⟨92, false, 8447355944020915, 68⟩,
    ⟨94, true, 5119609663042979, 67⟩, ⟨96, false, 6371069802897929, 67⟩, ⟨98, true, 4095687730434383, 66⟩,
    ⟨100, false, 2730458486956255, 65⟩, ⟨102, true, 7281222631883347, 66⟩],
  [⟨0, true, 1138120783405719, 63⟩, ⟨3, false, 1600873189845407, 70⟩, ⟨5, false, 4502455846440207, 65⟩,
    ⟨10, false, 5530289201284133, 71⟩, ⟨12, true, 8732035580974947, 71⟩, ⟨14, true, 8732035580974947, 66⟩,
    ⟨21, false, 8732035580974947, 72⟩, ⟨23, true, 4948153495885803, 70⟩, ⟨25, false, 2328542821593319, 68⟩,
    ⟨27, false, 8149899875576617, 66⟩, ⟨36, false, 8732035580974947, 72⟩, ⟨38, true, 8732035580974947, 71⟩,
    ⟨40, false, 2328542821593319, 68⟩, ⟨42, true, 2328542821593319, 67⟩, ⟨44, true, 3492814232389979, 65⟩,
    ⟨55, false, 5530289201284133, 71⟩, ⟨57, true, 4948153495885803, 70⟩, ⟨59, false, 2328542821593319, 68⟩,
    ⟨61, true, 2328542821593319, 67⟩, ⟨63, false, 2328542821593319, 66⟩, ⟨65, false, 2328542821593319, 65⟩,
    ⟨78, false, 1600873189845407, 70⟩, ⟨80, true, 8732035580974947, 71⟩, ⟨82, false, 2328542821593319, 68⟩,
    ⟨84, true, 2328542821593319, 67⟩, ⟨86, false, 2328542821593319, 66⟩, ⟨88, true, 2328542821593319, 65⟩,
    ⟨105, true, 1138120783405719, 63⟩, ⟨107, false, 4502455846440207, 65⟩, ⟨109, true, 8732035580974947, 66⟩,
    ⟨111, false, 8149899875576617, 66⟩, ⟨113, true, 3492814232389979, 65⟩, ⟨115, false, 2328542821593319, 65⟩],
  [⟨2, false, 8964521350989455, 66⟩, ⟨7, true, 5516628523685819, 69⟩, ⟨9, true, 1034367848191091, 63⟩,
    ⟨16, true, 5817535534068681, 70⟩, ⟨18, false, 8425396290720159, 69⟩, ⟨20, false, 1805442062297177, 64⟩,
    ⟨29, true, 6018140207657257, 71⟩, ⟨31, false, 4413302818948655, 69⟩, ⟨33, true, 6419349554834407, 68⟩,
    ⟨35, true, 2808465430240053, 65⟩, ⟨46, true, 8024186943543009, 73⟩, ⟨48, false, 8024186943543009, 71⟩,
    ⟨50, true, 6419349554834407, 69⟩, ⟨52, false, 4814512166125805, 67⟩, ⟨54, false, 6419349554834407, 67⟩,
    ⟨67, false, 5015116839714381, 70⟩, ⟨69, true, 8024186943543009, 71⟩, ⟨73, false, 6419349554834407, 69⟩,
    ⟨75, true, 6419349554834407, 67⟩, ⟨92, false, 6895785654607273, 67⟩, ⟨94, true, 7522675259571571, 67⟩,
    ⟨96, false, 8024186943543009, 67⟩, ⟨98, true, 8024186943543009, 67⟩, ⟨100, false, 6419349554834407, 67⟩],
  [⟨0, false, 2338615898098745, 64⟩, ⟨3, true, 4523037341377793, 68⟩, ⟨5, true, 8223704257050533, 66⟩,
    ⟨10, true, 5831353927726741, 70⟩, ⟨12, false, 2990437911654739, 67⟩, ⟨14, false, 6728485301223163, 66⟩,
    ⟨21, true, 2691394120489265, 71⟩, ⟨23, false, 3588525493985687, 69⟩, ⟨25, true, 3887569285151161, 67⟩,
    ⟨27, true, 4784700658647583, 66⟩, ⟨36, false, 2691394120489265, 71⟩, ⟨40, true, 3588525493985687, 69⟩,
    ⟨42, false, 4784700658647583, 67⟩, ⟨44, false, 4784700658647583, 67⟩, ⟨55, false, 5831353927726741, 70⟩,
    ⟨57, true, 3588525493985687, 69⟩, ⟨59, false, 3588525493985687, 69⟩, ⟨63, true, 4784700658647583, 67⟩,
    ⟨78, false, 4523037341377793, 68⟩, ⟨80, true, 2990437911654739, 67⟩, ⟨82, false, 3887569285151161, 67⟩,
    ⟨84, true, 4784700658647583, 67⟩, ⟨86, false, 4784700658647583, 67⟩, ⟨105, true, 2338615898098745, 64⟩,
    ⟨107, false, 8223704257050533, 66⟩, ⟨109, true, 6728485301223163, 66⟩, ⟨111, false, 4784700658647583, 66⟩,
    ⟨113, true, 4784700658647583, 67⟩],
  [⟨2, true, 8660550416429821, 66⟩, ⟨7, false, 1998588557637651, 66⟩, ⟨9, false, 3330980929396085, 65⟩,
    ⟨16, false, 4845063170030669, 70⟩, ⟨18, true, 287675625720571, 63⟩, ⟨20, true, 8721113706055205, 67⟩,
    ⟨29, true, 5814075804036803, 71⟩, ⟨31, true, 7752101072049071, 72⟩, ⟨33, false, 4845063170030669, 67⟩,
    ⟨35, false, 7752101072049071, 68⟩, ⟨46, true, 6783088438042937, 70⟩, ⟨48, false, 4845063170030669, 69⟩,
    ⟨50, true, 7752101072049071, 70⟩, ⟨52, true, 7752101072049071, 68⟩, ⟨67, true, 6783088438042937, 70⟩,
    ⟨69, false, 6783088438042937, 69⟩, ⟨71, true, 5814075804036803, 68⟩, ⟨73, false, 7752101072049071, 68⟩,
    ⟨92, false, 4663373301154519, 66⟩, ⟨94, true, 8478860547553671, 67⟩, ⟨96, false, 6783088438042937, 67⟩,
    ⟨98, true, 7752101072049071, 68⟩],
  [⟨0, true, 305325580291319, 61⟩, ⟨3, false, 5368361851275939, 67⟩, ⟨5, false, 7086237643684239, 66⟩,
    ⟨10, false, 3435751584816601, 71⟩, ⟨12, true, 43617940041617, 60⟩, ⟨14, true, 4294689481020751, 66⟩,
    ⟨21, true, 5153627377224901, 70⟩, ⟨23, false, 3435751584816601, 70⟩, ⟨25, false, 5153627377224901, 67⟩,
    ⟨27, false, 3435751584816601, 67⟩, ⟨36, true, 5153627377224901, 70⟩, ⟨38, false, 5153627377224901, 69⟩,
    ⟨40, true, 3435751584816601, 68⟩, ⟨42, true, 3435751584816601, 67⟩, ⟨55, false, 3435751584816601, 71⟩,
    ⟨57, false, 3435751584816601, 70⟩, ⟨59, true, 3435751584816601, 68⟩, ⟨61, false, 3435751584816601, 67⟩,
    ⟨78, false, 5368361851275939, 67⟩, ⟨80, true, 43617940041617, 60⟩, ⟨82, false, 5153627377224901, 67⟩,
    ⟨84, true, 3435751584816601, 67⟩, ⟨105, true, 305325580291319, 61⟩, ⟨107, false, 7086237643684239, 66⟩,
    ⟨109, true, 4294689481020751, 66⟩, ⟨111, false, 3435751584816601, 67⟩],
  [⟨2, false, 8198316435162335, 66⟩, ⟨7, true, 3573625112763069, 66⟩, ⟨9, true, 2312345661199633, 65⟩,
    ⟨16, false, 5045117806253745, 69⟩, ⟨18, false, 2942985386981351, 66⟩, ⟨20, false, 1681705935417915, 66⟩,
    ⟨29, false, 5045117806253745, 69⟩, ⟨31, true, 5045117806253745, 68⟩, ⟨33, true, 1681705935417915, 66⟩,
    ⟨46, true, 1681705935417915, 69⟩, ⟨48, true, 1681705935417915, 68⟩, ⟨50, false, 1681705935417915, 66⟩,
    ⟨67, true, 7567676709380617, 68⟩, ⟨69, false, 4204264838544787, 67⟩, ⟨71, true, 1681705935417915, 66⟩,
    ⟨92, false, 5675757532035463, 66⟩, ⟨94, true, 7567676709380617, 67⟩, ⟨96, false, 1681705935417915, 66⟩],
  [⟨0, false, 5238803319287709, 65⟩, ⟨3, true, 2475478491531555, 65⟩, ⟨5, true, 1381662413878077, 64⟩,
    ⟨10, false, 5066095517552949, 68⟩, ⟨12, false, 460554137959359, 63⟩, ⟨14, false, 460554137959359, 64⟩,
    ⟨21, false, 2302770689796795, 68⟩, ⟨23, true, 460554137959359, 64⟩, ⟨25, true, 460554137959359, 64⟩,
    ⟨36, true, 2302770689796795, 68⟩, ⟨40, false, 460554137959359, 64⟩, ⟨55, true, 5066095517552949, 68⟩,
    ⟨57, false, 460554137959359, 64⟩, ⟨59, true, 460554137959359, 64⟩, ⟨78, false, 2475478491531555, 65⟩,
    ⟨80, true, 460554137959359, 63⟩, ⟨82, false, 460554137959359, 64⟩, ⟨105, true, 5238803319287709, 65⟩,
    ⟨107, false, 1381662413878077, 64⟩, ⟨109, true, 460554137959359, 64⟩],
  [⟨2, true, 233875148182487, 61⟩, ⟨7, false, 5181234052042789, 66⟩, ⟨9, false, 2302770689796795, 66⟩,
    ⟨16, true, 1439231681122997, 65⟩, ⟨18, true, 2302770689796795, 66⟩, ⟨29, false, 2302770689796795, 68⟩,
    ⟨31, false, 2302770689796795, 66⟩, ⟨46, false, 6908312069390385, 68⟩, ⟨48, true, 2302770689796795, 66⟩,
    ⟨67, true, 8059697414288783, 67⟩, ⟨69, false, 2302770689796795, 66⟩, ⟨92, false, 6332619396941187, 66⟩,
    ⟨94, true, 2302770689796795, 66⟩],
  [⟨0, true, 5931776684829951, 65⟩, ⟨3, false, 8473966692614215, 66⟩, ⟨5, false, 1694793338522843, 65⟩,
    ⟨10, true, 5084380015568529, 66⟩, ⟨12, true, 1694793338522843, 65⟩, ⟨21, false, 1694793338522843, 66⟩,
    ⟨23, false, 1694793338522843, 65⟩, ⟨36, false, 1694793338522843, 66⟩, ⟨38, true, 1694793338522843, 65⟩,
    ⟨55, true, 5084380015568529, 66⟩, ⟨57, false, 1694793338522843, 65⟩, ⟨78, false, 8473966692614215, 66⟩,
    ⟨80, true, 1694793338522843, 65⟩, ⟨105, true, 5931776684829951, 65⟩, ⟨107, false, 1694793338522843, 65⟩],
  [⟨2, false, 1556767087068361, 64⟩, ⟨7, true, 1556767087068361, 64⟩, ⟨16, false, 1556767087068361, 64⟩,
    ⟨29, true, 1556767087068361, 64⟩, ⟨46, false, 1556767087068361, 64⟩, ⟨67, true, 1556767087068361, 64⟩,
    ⟨92, false, 1556767087068361, 64⟩],
  [⟨0, false, 8237637123266639, 65⟩, ⟨3, true, 8237637123266639, 65⟩, ⟨10, false, 8237637123266639, 65⟩,
    ⟨21, true, 8237637123266639, 65⟩, ⟨36, false, 8237637123266639, 65⟩, ⟨55, true, 8237637123266639, 65⟩,
    ⟨78, false, 8237637123266639, 65⟩, ⟨105, true, 8237637123266639, 65⟩]]

/-- The array `t2s14`: so3/_tensor_conversion_lut.npz. -/
def shippedT2s14 : List (List ShippedEntry) := [
  [⟨14, true, 604807468498279, 49⟩, ⟨16, true, 3131985558289667, 48⟩, ⟨18, false, 7993645384255421, 47⟩,
    ⟨20, false, 3274416157453939, 44⟩, ⟨22, true, 4940628405776021, 42⟩, ⟨24, false, 7352129782716475, 42⟩,
    ⟨26, true, 3964620856744335, 42⟩, ⟨28, false, 8694656885282361, 46⟩],
  [⟨0, false, 4250239997445787, 44⟩, ⟨2, true, 3139126754811199, 41⟩, ⟨4, false, 4928711853950893, 41⟩,
    ⟨6, true, 5411394958096137, 42⟩, ⟨8, false, 889361608445971, 43⟩, ⟨10, false, 2322758469725235, 45⟩,
    ⟨12, true, 2773751916001633, 49⟩],
  [⟨15, true, 6154402928344845, 51⟩, ⟨17, false, 5651263018546907, 47⟩, ⟨19, false, 6988234139364179, 46⟩,
    ⟨21, true, 4659457481598643, 42⟩, ⟨23, false, 2354080264457439, 40⟩, ⟨25, true, 7269854200947735, 42⟩,
    ⟨27, false, 7827629695711897, 44⟩],
  [⟨14, false, 5691139129803477, 50⟩, ⟨16, true, 5915972721213815, 48⟩, ⟨18, true, 3178060481494325, 44⟩,
    ⟨20, false, 1014564985092217, 40⟩, ⟨22, true, 3335907458792799, 42⟩, ⟨24, true, 5073941483039369, 42⟩,
    ⟨26, false, 3646345515776821, 41⟩, ⟨28, true, 918761188545311, 41⟩],
  [⟨1, false, 7331263197725405, 43⟩, ⟨3, true, 5606411842054225, 41⟩, ⟨5, false, 6090106118493169, 41⟩,
    ⟨7, true, 2466960216310209, 41⟩, ⟨9, false, 1809010965154557, 45⟩, ⟨11, false, 3116933726724325, 46⟩,
    ⟨13, true, 6154402928344845, 51⟩],
  [⟨14, true, 8963048385613839, 51⟩, ⟨16, false, 4523979139751741, 47⟩, ⟨18, false, 4357709616924795, 45⟩,
    ⟨20, true, 4876863979732353, 42⟩, ⟨22, false, 2069133966142205, 40⟩, ⟨24, true, 4556376599354211, 43⟩,
    ⟨26, true, 3328070174809307, 42⟩, ⟨28, false, 2588212643520949, 43⟩],
  [⟨0, true, 2624900438798719, 42⟩, ⟨2, false, 8469175434300753, 42⟩, ⟨4, true, 2878712678005377, 42⟩,
    ⟨6, true, 3361624140635479, 41⟩, ⟨8, false, 2379250097361301, 41⟩, ⟨10, true, 3871264116208725, 45⟩,
    ⟨12, true, 1594907351700939, 46⟩],
  [⟨15, true, 7077563367596571, 49⟩, ⟨17, true, 1405533199200455, 44⟩, ⟨19, false, 1685622374780145, 41⟩,
    ⟨21, true, 4491017601999609, 42⟩, ⟨23, true, 608804305355329, 39⟩, ⟨25, false, 2972636539879837, 40⟩,
    ⟨27, true, 1448081244950447, 40⟩],
  [⟨0, false, 6249361757749089, 44⟩, ⟨2, true, 8763687698713419, 44⟩, ⟨4, true, 872338878737051, 39⟩,
    ⟨6, false, 6067321619683547, 41⟩, ⟨8, true, 1300795249736397, 40⟩, ⟨10, false, 774252823241745, 44⟩,
    ⟨12, false, 7766505364804573, 48⟩],
  [⟨15, false, 4308082049841391, 48⟩, ⟨17, false, 5593002575056733, 47⟩, ⟨19, true, 7616018766541103, 43⟩,
    ⟨21, false, 2287618770899563, 40⟩, ⟨23, true, 4545886614987125, 42⟩, ⟨25, true, 1155172989642903, 40⟩,
    ⟨27, false, 7670835111747627, 43⟩],
  [⟨14, false, 2171357960674149, 49⟩, ⟨16, false, 1413743481172419, 44⟩, ⟨18, true, 6633552786426409, 44⟩,
    ⟨20, true, 222031138065149, 40⟩, ⟨22, false, 7931024680282463, 42⟩, ⟨24, true, 183939018948001, 38⟩,
    ⟨26, true, 3463040028484479, 41⟩, ⟨28, false, 6547474218755889, 43⟩],
  [⟨1, true, 1012167821866209, 39⟩, ⟨3, false, 6521015615360749, 41⟩, ⟨5, true, 2873018076871943, 43⟩,
    ⟨7, true, 3714013842681733, 41⟩, ⟨9, false, 7444617042673719, 43⟩, ⟨11, true, 4282142596527811, 46⟩,
    ⟨13, true, 7077563367596571, 49⟩],
  [⟨14, true, 313557970348493, 45⟩, ⟨16, true, 8351961488772445, 47⟩, ⟨18, false, 4905806633960367, 43⟩,
    ⟨20, true, 198133461756767, 38⟩, ⟨22, true, 4487419161611, 32⟩, ⟨24, false, 8016965786207385, 42⟩,
    ⟨26, true, 5865775593354941, 46⟩, ⟨28, true, 2872429464574645, 43⟩],
  [⟨1, false, 2215855488033485, 41⟩, ⟨3, true, 3658415093226097, 43⟩, ⟨5, true, 5371851599275183, 41⟩,
    ⟨7, false, 3090487029495971, 40⟩, ⟨9, true, 3948434891981179, 42⟩, ⟨11, false, 582604434901743, 45⟩,
    ⟨13, false, 4308082049841391, 48⟩],
  [⟨14, false, 1814422405494837, 47⟩, ⟨16, false, 119624448406897, 42⟩, ⟨18, true, 2997617019095783, 42⟩,
    ⟨20, false, 8046999367840625, 42⟩, ⟨22, true, 7362837286158313, 43⟩, ⟨24, true, 5738777486530279, 42⟩,
    ⟨26, false, 7389362298787981, 43⟩, ⟨28, false, 2273734568429569, 46⟩],
  [⟨0, false, 3938999596790679, 42⟩, ⟨2, true, 5818565054586755, 42⟩, ⟨4, true, 7034479552659001, 42⟩,
    ⟨6, false, 8199083269842631, 42⟩, ⟨8, false, 6050983653725859, 44⟩, ⟨10, true, 8516781055659195, 44⟩,
    ⟨12, false, 6102254215203593, 47⟩],
  [⟨15, false, 6769843221179329, 48⟩, ⟨17, true, 2563459513567669, 43⟩, ⟨19, false, 5683102940759521, 46⟩,
    ⟨21, false, 7734554065242925, 42⟩, ⟨23, true, 2806014654346935, 41⟩, ⟨25, true, 4985795884206071, 41⟩,
    ⟨27, false, 2407451733832307, 40⟩],
  [⟨0, true, 5256396631967841, 44⟩, ⟨2, true, 5301220759427997, 43⟩, ⟨4, false, 4956596115332189, 41⟩,
    ⟨6, true, 2951669977143347, 43⟩, ⟨8, true, 6271246108154067, 42⟩, ⟨10, false, 2613103278440889, 42⟩,
    ⟨12, true, 2912439511801715, 47⟩],
  [⟨15, true, 6462123074762087, 49⟩, ⟨17, false, 6532452226335793, 44⟩, ⟨19, true, 58225604427465, 36⟩,
    ⟨21, true, 810884115810829, 40⟩, ⟨23, false, 5241231875768251, 41⟩, ⟨25, true, 1918954391107205, 42⟩,
    ⟨27, true, 239842622220465, 38⟩],
  [⟨0, true, 7943721006249987, 47⟩, ⟨2, false, 4841532304392353, 42⟩, ⟨4, true, 1467240600383985, 41⟩,
    ⟨6, true, 2664702062698855, 40⟩, ⟨8, false, 5737213553549827, 41⟩, ⟨10, true, 5613332968502651, 43⟩,
    ⟨12, true, 7766505364804573, 50⟩],
  [⟨15, true, 4308082049841391, 50⟩, ⟨17, true, 7231577548217885, 44⟩, ⟨19, false, 941806008328539, 39⟩,
    ⟨21, true, 738367327544367, 39⟩, ⟨23, true, 5936577136549377, 42⟩, ⟨25, false, 6539646349678817, 42⟩,
    ⟨27, false, 8455780981254675, 54⟩],
  [⟨14, true, 6578520579485379, 48⟩, ⟨16, false, 6350970715420713, 46⟩, ⟨18, false, 4982495105479747, 44⟩,
    ⟨20, true, 8255560906531959, 43⟩, ⟨22, true, 1996522158586403, 41⟩, ⟨24, false, 2370761740646957, 40⟩,
    ⟨26, false, 5633153767963209, 43⟩, ⟨28, true, 1048494633062857, 40⟩],
  [⟨1, false, 5606709879827219, 41⟩, ⟨3, true, 3578899973674271, 41⟩, ⟨5, true, 4899871608253435, 41⟩,
    ⟨7, false, 3400433508453583, 41⟩, ⟨9, false, 7599498118457499, 44⟩, ⟨11, true, 720972988190907, 41⟩,
    ⟨13, false, 6769843221179329, 48⟩],
  [⟨14, false, 343302599946769, 44⟩, ⟨16, true, 6002972320055195, 45⟩, ⟨18, false, 3302115361893323, 45⟩,
    ⟨20, false, 5015905005526575, 42⟩, ⟨22, true, 7875960726219313, 43⟩, ⟨24, true, 6540022659419813, 42⟩,
    ⟨26, false, 8219006345974707, 43⟩, ⟨28, false, 1840482845746967, 43⟩],
  [⟨1, true, 6232154369449533, 43⟩, ⟨3, true, 1471057820843239, 40⟩, ⟨5, false, 5618126127471421, 41⟩,
    ⟨7, false, 1254321336912599, 43⟩, ⟨9, true, 2811091525475617, 41⟩, ⟨11, false, 854789944332401, 41⟩,
    ⟨13, true, 6462123074762087, 49⟩],
  [⟨14, true, 373047229545045, 45⟩, ⟨16, false, 4045481346124153, 44⟩, ⟨18, true, 2865667737216849, 42⟩,
    ⟨20, true, 7383078469673213, 44⟩, ⟨22, false, 1066637198074915, 39⟩, ⟨24, true, 2953886253575145, 43⟩,
    ⟨26, true, 7485784396805339, 43⟩, ⟨28, false, 8255572950621425, 46⟩],
  [⟨1, true, 5262535165368815, 44⟩, ⟨3, false, 7713438829986005, 42⟩, ⟨5, true, 7880784902279619, 46⟩,
    ⟨7, true, 1623638598305023, 39⟩, ⟨9, false, 4785308971466207, 41⟩, ⟨11, true, 27850085047305, 36⟩,
    ⟨13, true, 4308082049841391, 50⟩],
  [⟨14, true, 5155735797034509, 51⟩, ⟨16, true, 4523979139751741, 44⟩, ⟨18, false, 732910594539079, 39⟩,
    ⟨20, true, 3100614875211161, 41⟩, ⟨22, true, 1212919735380041, 40⟩, ⟨24, false, 1803930153329463, 40⟩,
    ⟨26, false, 1542753568277731, 47⟩, ⟨28, true, 5264653759525497, 45⟩],
  [⟨0, true, 8888776156397189, 43⟩, ⟨4, false, 5701656833248161, 41⟩, ⟨8, true, 350134184633519, 38⟩,
    ⟨12, false, 8598630939605063, 46⟩],
  [⟨15, false, 2384831134733627, 45⟩, ⟨17, false, 7224294992781613, 47⟩, ⟨19, true, 1043898450782681, 40⟩,
    ⟨21, true, 6915440336025291, 44⟩, ⟨23, false, 6245852125446979, 41⟩, ⟨25, false, 4561325466598529, 43⟩,
    ⟨27, true, 1469843198096721, 39⟩],
  [⟨0, false, 8086215702526647, 46⟩, ⟨2, false, 5818565054586755, 42⟩, ⟨4, true, 4368834113837321, 42⟩,
    ⟨6, true, 8199083269842631, 42⟩, ⟨8, false, 4089401040704839, 42⟩, ⟨10, false, 8516781055659195, 44⟩,
    ⟨12, true, 2912439511801715, 44⟩],
  [⟨15, true, 6462123074762087, 46⟩, ⟨17, false, 4223882153037637, 44⟩, ⟨19, false, 1910199934666627, 41⟩,
    ⟨21, true, 3002846990618301, 41⟩, ⟨23, true, 859959367775011, 39⟩, ⟨25, false, 3845464517556439, 41⟩,
    ⟨27, false, 8515754597778161, 44⟩],
  [⟨0, false, 3234842706336179, 44⟩, ⟨2, true, 6335909349745513, 43⟩, ⟨4, true, 5544358116827057, 42⟩,
    ⟨6, false, 302341195575447, 37⟩, ⟨8, false, 545461266862307, 40⟩, ⟨10, true, 592787317794461, 39⟩,
    ⟨12, false, 3276494450776929, 44⟩],
  [⟨15, false, 1817472114776837, 44⟩, ⟨17, true, 5378167189686715, 43⟩, ⟨19, true, 3006757951215793, 47⟩,
    ⟨21, false, 4624615222239959, 41⟩, ⟨23, true, 7205577618672829, 43⟩, ⟨25, true, 5771974644005673, 42⟩,
    ⟨27, false, 6834173224331599, 44⟩],
  [⟨0, true, 4483755161109861, 45⟩, ⟨2, true, 6694310518078387, 44⟩, ⟨4, false, 2119709829398757, 40⟩,
    ⟨6, false, 3935559969524463, 44⟩, ⟨8, true, 6828136087274441, 41⟩, ⟨10, false, 7548965026607013, 42⟩,
    ⟨12, true, 6310285608903715, 45⟩],
  [⟨15, true, 7000633330992261, 46⟩, ⟨17, false, 4496977981897829, 42⟩, ⟨19, true, 3720243440326409, 41⟩,
    ⟨21, true, 3342291824124983, 42⟩, ⟨23, false, 298105185808931, 37⟩, ⟨25, true, 3070686822692577, 44⟩,
    ⟨27, true, 3421215411473053, 43⟩],
  [⟨14, true, 6578520579485379, 48⟩, ⟨16, true, 6350970715420713, 46⟩, ⟨18, false, 4982495105479747, 44⟩,
    ⟨20, false, 8255560906531959, 43⟩, ⟨22, true, 1996522158586403, 41⟩, ⟨24, true, 2370761740646957, 40⟩,
    ⟨26, false, 5633153767963209, 43⟩, ⟨28, false, 1048494633062857, 40⟩],
  [⟨1, true, 1469843198096721, 39⟩, ⟨3, true, 4561325466598529, 43⟩, ⟨5, false, 6245852125446979, 41⟩,
    ⟨7, false, 6915440336025291, 44⟩, ⟨9, true, 1043898450782681, 40⟩, ⟨11, true, 7224294992781613, 47⟩,
    ⟨13, false, 2384831134733627, 45⟩],
  [⟨14, false, 6578520579485379, 47⟩, ⟨18, true, 4982495105479747, 43⟩, ⟨22, false, 1996522158586403, 40⟩,
    ⟨26, true, 5633153767963209, 42⟩],
  [⟨1, false, 8725213201909269, 46⟩, ⟨3, false, 4719231340323903, 41⟩, ⟨5, true, 5383922068774173, 43⟩,
    ⟨7, true, 8529727100913489, 42⟩, ⟨9, false, 2275719273516349, 42⟩, ⟨11, false, 6670820779624957, 44⟩,
    ⟨13, true, 6462123074762087, 46⟩],
  [⟨14, true, 4662470689529765, 46⟩, ⟨16, false, 6002972320055195, 45⟩, ⟨18, false, 8313932530012833, 44⟩,
    ⟨20, true, 5015905005526575, 42⟩, ⟨22, true, 1012027067808989, 40⟩, ⟨24, false, 6540022659419813, 42⟩,
    ⟨26, false, 95228162185991, 38⟩, ⟨28, true, 1840482845746967, 43⟩],
  [⟨1, false, 2570751359605437, 42⟩, ⟨3, true, 7108462794549699, 43⟩, ⟨5, true, 8544291220555755, 42⟩,
    ⟨7, false, 7902566432457189, 42⟩, ⟨9, false, 6692927554869771, 43⟩, ⟨11, true, 6754570167142083, 43⟩,
    ⟨13, false, 1817472114776837, 44⟩],
  [⟨14, false, 5408565148619855, 46⟩, ⟨16, true, 7046967506151751, 44⟩, ⟨18, false, 1574369209427281, 43⟩,
    ⟨20, false, 6861674622944879, 42⟩, ⟨22, true, 1121247328340841, 40⟩, ⟨24, true, 316442470789515, 38⟩,
    ⟨26, false, 8876966413707255, 44⟩, ⟨28, false, 6468289815354311, 46⟩],
  [⟨1, true, 5020470273052933, 44⟩, ⟨3, true, 8318414865422311, 43⟩, ⟨5, false, 1129605034618529, 39⟩,
    ⟨7, false, 2543271176991497, 41⟩, ⟨9, true, 6458540860183649, 41⟩, ⟨11, false, 5159690526598561, 42⟩,
    ⟨13, true, 7000633330992261, 46⟩],
  [⟨14, true, 5247448404962527, 46⟩, ⟨16, false, 2892736661475873, 42⟩, ⟨18, true, 207827167532071, 37⟩,
    ⟨20, true, 2641779490090227, 44⟩, ⟨22, false, 1167083531860441, 39⟩, ⟨24, true, 538160270171403, 40⟩,
    ⟨26, true, 2267452652435493, 42⟩, ⟨28, false, 4061017703696683, 46⟩],
  [⟨0, false, 3938999596790679, 42⟩, ⟨2, false, 5818565054586755, 42⟩, ⟨4, true, 7034479552659001, 42⟩,
    ⟨6, true, 8199083269842631, 42⟩, ⟨8, false, 6050983653725859, 44⟩, ⟨10, false, 8516781055659195, 44⟩,
    ⟨12, false, 6102254215203593, 47⟩],
  [⟨15, false, 6769843221179329, 48⟩, ⟨17, false, 720972988190907, 41⟩, ⟨19, false, 7599498118457499, 44⟩,
    ⟨21, true, 3400433508453583, 41⟩, ⟨23, true, 4899871608253435, 41⟩, ⟨25, false, 3578899973674271, 41⟩,
    ⟨27, false, 5606709879827219, 41⟩],
  [⟨0, false, 8086215702526647, 46⟩, ⟨2, true, 5818565054586755, 42⟩, ⟨4, true, 4368834113837321, 42⟩,
    ⟨6, false, 8199083269842631, 42⟩, ⟨8, false, 4089401040704839, 42⟩, ⟨10, true, 8516781055659195, 44⟩,
    ⟨12, true, 2912439511801715, 44⟩],
  [⟨15, true, 6462123074762087, 46⟩, ⟨17, true, 6670820779624957, 44⟩, ⟨19, false, 2275719273516349, 42⟩,
    ⟨21, false, 8529727100913489, 42⟩, ⟨23, true, 5383922068774173, 43⟩, ⟨25, true, 4719231340323903, 41⟩,
    ⟨27, false, 8725213201909269, 46⟩],
  [⟨0, true, 8086215702526647, 45⟩, ⟨4, false, 4368834113837321, 41⟩, ⟨8, true, 4089401040704839, 41⟩,
    ⟨12, false, 2912439511801715, 43⟩],
  [⟨15, false, 6462123074762087, 45⟩, ⟨17, false, 4893877253174641, 45⟩, ⟨19, true, 6096119142849603, 42⟩,
    ⟨21, true, 5048066239353773, 43⟩, ⟨23, false, 4785817988293587, 41⟩, ⟨25, false, 3495067291069857, 43⟩,
    ⟨27, true, 5348528949127739, 43⟩],
  [⟨0, false, 3233060579708579, 46⟩, ⟨2, false, 6335909349745513, 43⟩, ⟨4, true, 3193310110847585, 42⟩,
    ⟨6, true, 302341195575447, 37⟩, ⟨8, false, 2998478506980225, 41⟩, ⟨10, false, 592787317794461, 39⟩,
    ⟨12, true, 4550686737190179, 43⟩],
  [⟨15, true, 631066706519735, 41⟩, ⟨17, false, 4154697876393055, 43⟩, ⟨19, false, 773760041103137, 39⟩,
    ⟨21, true, 840649665600379, 39⟩, ⟨23, true, 746105895906345, 39⟩, ⟨25, false, 503055124808843, 39⟩,
    ⟨27, false, 3862884673923879, 44⟩],
  [⟨0, false, 5734449742511143, 46⟩, ⟨2, true, 2988754090706319, 43⟩, ⟨4, true, 5285529206747443, 42⟩,
    ⟨6, false, 8691028266033189, 42⟩, ⟨8, false, 7659315160588433, 42⟩, ⟨10, true, 6145631784481351, 41⟩,
    ⟨12, false, 1532064534854027, 41⟩],
  [⟨15, false, 6798691984905945, 44⟩, ⟨17, true, 1643581730023589, 40⟩, ⟨19, false, 5001626207310887, 44⟩,
    ⟨21, false, 5033744574464007, 41⟩, ⟨23, true, 446314847329379, 39⟩, ⟨25, true, 101774040399925, 37⟩,
    ⟨27, false, 2979546149022227, 44⟩],
  [⟨14, false, 2171357960674149, 49⟩, ⟨16, true, 1413743481172419, 44⟩, ⟨18, true, 6633552786426409, 44⟩,
    ⟨20, false, 222031138065149, 40⟩, ⟨22, false, 7931024680282463, 42⟩, ⟨24, false, 183939018948001, 38⟩,
    ⟨26, true, 3463040028484479, 41⟩, ⟨28, true, 6547474218755889, 43⟩],
  [⟨1, false, 2407451733832307, 40⟩, ⟨3, false, 4985795884206071, 41⟩, ⟨5, true, 2806014654346935, 41⟩,
    ⟨7, true, 7734554065242925, 42⟩, ⟨9, false, 5683102940759521, 46⟩, ⟨11, false, 2563459513567669, 43⟩,
    ⟨13, false, 6769843221179329, 48⟩],
  [⟨14, false, 343302599946769, 44⟩, ⟨16, false, 6002972320055195, 45⟩, ⟨18, false, 3302115361893323, 45⟩,
    ⟨20, true, 5015905005526575, 42⟩, ⟨22, true, 7875960726219313, 43⟩, ⟨24, false, 6540022659419813, 42⟩,
    ⟨26, false, 8219006345974707, 43⟩, ⟨28, true, 1840482845746967, 43⟩],
  [⟨1, false, 8515754597778161, 44⟩, ⟨3, true, 3845464517556439, 41⟩, ⟨5, true, 859959367775011, 39⟩,
    ⟨7, false, 3002846990618301, 41⟩, ⟨9, false, 1910199934666627, 41⟩, ⟨11, true, 4223882153037637, 44⟩,
    ⟨13, true, 6462123074762087, 46⟩],
  [⟨14, true, 4662470689529765, 46⟩, ⟨16, true, 6002972320055195, 45⟩, ⟨18, false, 8313932530012833, 44⟩,
    ⟨20, false, 5015905005526575, 42⟩, ⟨22, true, 1012027067808989, 40⟩, ⟨24, true, 6540022659419813, 42⟩,
    ⟨26, false, 95228162185991, 38⟩, ⟨28, false, 1840482845746967, 43⟩],
  [⟨1, true, 5348528949127739, 43⟩, ⟨3, true, 3495067291069857, 43⟩, ⟨5, false, 4785817988293587, 41⟩,
    ⟨7, false, 5048066239353773, 43⟩, ⟨9, true, 6096119142849603, 42⟩, ⟨11, true, 4893877253174641, 45⟩,
    ⟨13, false, 6462123074762087, 45⟩],
  [⟨14, false, 4662470689529765, 45⟩, ⟨18, true, 8313932530012833, 43⟩, ⟨22, false, 1012027067808989, 39⟩,
    ⟨26, true, 95228162185991, 37⟩],
  [⟨1, false, 6624839357339683, 48⟩, ⟨3, false, 2650882521404889, 41⟩, ⟨5, true, 8218758048251351, 45⟩,
    ⟨7, true, 2606649888033519, 40⟩, ⟨9, false, 5499310730829435, 43⟩, ⟨11, false, 7978039480435743, 43⟩,
    ⟨13, true, 631066706519735, 41⟩],
  [⟨14, true, 7366753263839693, 45⟩, ⟨16, false, 7046967506151751, 44⟩, ⟨18, false, 421222707536597, 39⟩,
    ⟨20, true, 6861674622944879, 42⟩, ⟨22, true, 902806807277137, 40⟩, ⟨24, false, 316442470789515, 38⟩,
    ⟨26, false, 414029793262449, 41⟩, ⟨28, true, 6468289815354311, 46⟩],
  [⟨1, false, 4606417813219203, 44⟩, ⟨3, true, 4570230440394491, 44⟩, ⟨5, true, 8009495520916813, 42⟩,
    ⟨7, false, 2670028599075541, 41⟩, ⟨9, false, 5083713177476291, 41⟩, ⟨11, true, 4574355133408217, 41⟩,
    ⟨13, false, 6798691984905945, 44⟩],
  [⟨14, false, 2497619366580239, 43⟩, ⟨16, true, 4654478538013811, 42⟩, ⟨18, false, 410085962591687, 39⟩,
    ⟨20, false, 7522119495467435, 42⟩, ⟨22, true, 1431360256443745, 40⟩, ⟨24, true, 727609612986657, 40⟩,
    ⟨26, false, 5757572263642379, 44⟩, ⟨28, false, 601818027914407, 44⟩],
  [⟨0, true, 2624900438798719, 42⟩, ⟨2, true, 8469175434300753, 42⟩, ⟨4, true, 2878712678005377, 42⟩,
    ⟨6, false, 3361624140635479, 41⟩, ⟨8, false, 2379250097361301, 41⟩, ⟨10, false, 3871264116208725, 45⟩,
    ⟨12, true, 1594907351700939, 46⟩],
  [⟨15, true, 7077563367596571, 49⟩, ⟨17, false, 4282142596527811, 46⟩, ⟨19, false, 7444617042673719, 43⟩,
    ⟨21, false, 3714013842681733, 41⟩, ⟨23, true, 2873018076871943, 43⟩, ⟨25, true, 6521015615360749, 41⟩,
    ⟨27, true, 1012167821866209, 39⟩],
  [⟨0, true, 5256396631967841, 44⟩, ⟨2, false, 5301220759427997, 43⟩, ⟨4, false, 4956596115332189, 41⟩,
    ⟨6, false, 2951669977143347, 43⟩, ⟨8, true, 6271246108154067, 42⟩, ⟨10, true, 2613103278440889, 42⟩,
    ⟨12, true, 2912439511801715, 47⟩],
  [⟨15, true, 6462123074762087, 49⟩, ⟨17, true, 854789944332401, 41⟩, ⟨19, true, 2811091525475617, 41⟩,
    ⟨21, true, 1254321336912599, 43⟩, ⟨23, false, 5618126127471421, 41⟩, ⟨25, false, 1471057820843239, 40⟩,
    ⟨27, true, 6232154369449533, 43⟩],
  [⟨0, false, 3234842706336179, 44⟩, ⟨2, false, 6335909349745513, 43⟩, ⟨4, true, 5544358116827057, 42⟩,
    ⟨6, true, 302341195575447, 37⟩, ⟨8, false, 545461266862307, 40⟩, ⟨10, false, 592787317794461, 39⟩,
    ⟨12, false, 3276494450776929, 44⟩],
  [⟨15, false, 1817472114776837, 44⟩, ⟨17, false, 6754570167142083, 43⟩, ⟨19, false, 6692927554869771, 43⟩,
    ⟨21, true, 7902566432457189, 42⟩, ⟨23, true, 8544291220555755, 42⟩, ⟨25, false, 7108462794549699, 43⟩,
    ⟨27, false, 2570751359605437, 42⟩],
  [⟨0, false, 3233060579708579, 46⟩, ⟨2, true, 6335909349745513, 43⟩, ⟨4, true, 3193310110847585, 42⟩,
    ⟨6, false, 302341195575447, 37⟩, ⟨8, false, 2998478506980225, 41⟩, ⟨10, true, 592787317794461, 39⟩,
    ⟨12, true, 4550686737190179, 43⟩],
  [⟨15, true, 631066706519735, 41⟩, ⟨17, true, 7978039480435743, 43⟩, ⟨19, false, 5499310730829435, 43⟩,
    ⟨21, false, 2606649888033519, 40⟩, ⟨23, true, 8218758048251351, 45⟩, ⟨25, true, 2650882521404889, 41⟩,
    ⟨27, false, 6624839357339683, 48⟩],
  [⟨0, true, 3233060579708579, 45⟩, ⟨4, false, 3193310110847585, 41⟩, ⟨8, true, 2998478506980225, 40⟩,
    ⟨12, false, 4550686737190179, 42⟩],
  [⟨15, false, 631066706519735, 40⟩, ⟨17, false, 7646683208085377, 44⟩, ⟨19, true, 4469867847119907, 41⟩,
    ⟨21, true, 925350556832761, 40⟩, ⟨23, false, 6996191923282179, 42⟩, ⟨25, false, 638662022169517, 41⟩,
    ⟨27, true, 4276937133757609, 44⟩],
  [⟨0, false, 2926685667624061, 48⟩, ⟨2, false, 2988754090706319, 43⟩, ⟨4, true, 8808728119581817, 45⟩,
    ⟨6, true, 8691028266033189, 42⟩, ⟨8, false, 8669197734664933, 43⟩, ⟨10, false, 6145631784481351, 41⟩,
    ⟨12, true, 7614815806898233, 42⟩],
  [⟨15, true, 8447879644610853, 43⟩, ⟨17, false, 1165664029518253, 40⟩, ⟨19, false, 1922332285603023, 40⟩,
    ⟨21, true, 6366086921596971, 42⟩, ⟨23, true, 3425673144647147, 42⟩, ⟨25, false, 989722624229283, 41⟩,
    ⟨27, false, 5189563938941529, 46⟩],
  [⟨14, false, 5691139129803477, 50⟩, ⟨16, false, 5915972721213815, 48⟩, ⟨18, true, 3178060481494325, 44⟩,
    ⟨20, true, 1014564985092217, 40⟩, ⟨22, true, 3335907458792799, 42⟩, ⟨24, false, 5073941483039369, 42⟩,
    ⟨26, false, 3646345515776821, 41⟩, ⟨28, false, 918761188545311, 41⟩],
  [⟨1, true, 1448081244950447, 40⟩, ⟨3, true, 2972636539879837, 40⟩, ⟨5, true, 608804305355329, 39⟩,
    ⟨7, false, 4491017601999609, 42⟩, ⟨9, false, 1685622374780145, 41⟩, ⟨11, false, 1405533199200455, 44⟩,
    ⟨13, true, 7077563367596571, 49⟩],
  [⟨14, true, 313557970348493, 45⟩, ⟨16, false, 8351961488772445, 47⟩, ⟨18, false, 4905806633960367, 43⟩,
    ⟨20, false, 198133461756767, 38⟩, ⟨22, true, 4487419161611, 32⟩, ⟨24, true, 8016965786207385, 42⟩,
    ⟨26, true, 5865775593354941, 46⟩, ⟨28, false, 2872429464574645, 43⟩],
  [⟨1, true, 239842622220465, 38⟩, ⟨3, false, 1918954391107205, 42⟩, ⟨5, false, 5241231875768251, 41⟩,
    ⟨7, false, 810884115810829, 40⟩, ⟨9, true, 58225604427465, 36⟩, ⟨11, true, 6532452226335793, 44⟩,
    ⟨13, true, 6462123074762087, 49⟩],
  [⟨14, true, 373047229545045, 45⟩, ⟨16, true, 4045481346124153, 44⟩, ⟨18, true, 2865667737216849, 42⟩,
    ⟨20, false, 7383078469673213, 44⟩, ⟨22, false, 1066637198074915, 39⟩, ⟨24, false, 2953886253575145, 43⟩,
    ⟨26, true, 7485784396805339, 43⟩, ⟨28, true, 8255572950621425, 46⟩],
  [⟨1, false, 6834173224331599, 44⟩, ⟨3, false, 5771974644005673, 42⟩, ⟨5, true, 7205577618672829, 43⟩,
    ⟨7, true, 4624615222239959, 41⟩, ⟨9, true, 3006757951215793, 47⟩, ⟨11, false, 5378167189686715, 43⟩,
    ⟨13, false, 1817472114776837, 44⟩],
  [⟨14, false, 5408565148619855, 46⟩, ⟨16, false, 7046967506151751, 44⟩, ⟨18, false, 1574369209427281, 43⟩,
    ⟨20, true, 6861674622944879, 42⟩, ⟨22, true, 1121247328340841, 40⟩, ⟨24, false, 316442470789515, 38⟩,
    ⟨26, false, 8876966413707255, 44⟩, ⟨28, true, 6468289815354311, 46⟩],
  [⟨1, false, 3862884673923879, 44⟩, ⟨3, true, 503055124808843, 39⟩, ⟨5, true, 746105895906345, 39⟩,
    ⟨7, false, 840649665600379, 39⟩, ⟨9, false, 773760041103137, 39⟩, ⟨11, true, 4154697876393055, 43⟩,
    ⟨13, true, 631066706519735, 41⟩],
  [⟨14, true, 7366753263839693, 45⟩, ⟨16, true, 7046967506151751, 44⟩, ⟨18, false, 421222707536597, 39⟩,
    ⟨20, false, 6861674622944879, 42⟩, ⟨22, true, 902806807277137, 40⟩, ⟨24, true, 316442470789515, 38⟩,
    ⟨26, false, 414029793262449, 41⟩, ⟨28, false, 6468289815354311, 46⟩],
  [⟨1, true, 4276937133757609, 44⟩, ⟨3, true, 638662022169517, 41⟩, ⟨5, false, 6996191923282179, 42⟩,
    ⟨7, false, 925350556832761, 40⟩, ⟨9, true, 4469867847119907, 41⟩, ⟨11, true, 7646683208085377, 44⟩,
    ⟨13, false, 631066706519735, 40⟩],
  [⟨14, false, 7366753263839693, 44⟩, ⟨18, true, 421222707536597, 38⟩, ⟨22, false, 902806807277137, 39⟩,
    ⟨26, true, 414029793262449, 40⟩],
  [⟨1, true, 5271690871385503, 48⟩, ⟨3, false, 2419881654437657, 42⟩, ⟨5, false, 8106428781077073, 45⟩,
    ⟨7, true, 4520729712741063, 41⟩, ⟨9, true, 4910762642851069, 44⟩, ⟨11, false, 5530190534418889, 41⟩,
    ⟨13, true, 8447879644610853, 43⟩],
  [⟨14, true, 3090497999250043, 42⟩, ⟨16, false, 4654478538013811, 42⟩, ⟨18, false, 6917751239704113, 43⟩,
    ⟨20, true, 7522119495467435, 42⟩, ⟨22, true, 5988053729768463, 44⟩, ⟨24, false, 727609612986657, 40⟩,
    ⟨26, false, 6935235428454439, 47⟩, ⟨28, true, 601818027914407, 44⟩],
  [⟨0, false, 4250239997445787, 44⟩, ⟨2, false, 3139126754811199, 41⟩, ⟨4, false, 4928711853950893, 41⟩,
    ⟨6, false, 5411394958096137, 42⟩, ⟨8, false, 889361608445971, 43⟩, ⟨10, true, 2322758469725235, 45⟩,
    ⟨12, true, 2773751916001633, 49⟩],
  [⟨15, true, 6154402928344845, 51⟩, ⟨17, true, 3116933726724325, 46⟩, ⟨19, false, 1809010965154557, 45⟩,
    ⟨21, false, 2466960216310209, 41⟩, ⟨23, false, 6090106118493169, 41⟩, ⟨25, false, 5606411842054225, 41⟩,
    ⟨27, false, 7331263197725405, 43⟩],
  [⟨0, false, 6249361757749089, 44⟩, ⟨2, false, 8763687698713419, 44⟩, ⟨4, true, 872338878737051, 39⟩,
    ⟨6, true, 6067321619683547, 41⟩, ⟨8, true, 1300795249736397, 40⟩, ⟨10, true, 774252823241745, 44⟩,
    ⟨12, false, 7766505364804573, 48⟩],
  [⟨15, false, 4308082049841391, 48⟩, ⟨17, true, 582604434901743, 45⟩, ⟨19, true, 3948434891981179, 42⟩,
    ⟨21, true, 3090487029495971, 40⟩, ⟨23, true, 5371851599275183, 41⟩, ⟨25, false, 3658415093226097, 43⟩,
    ⟨27, false, 2215855488033485, 41⟩],
  [⟨0, true, 7943721006249987, 47⟩, ⟨2, true, 4841532304392353, 42⟩, ⟨4, true, 1467240600383985, 41⟩,
    ⟨6, false, 2664702062698855, 40⟩, ⟨8, false, 5737213553549827, 41⟩, ⟨10, false, 5613332968502651, 43⟩,
    ⟨12, true, 7766505364804573, 50⟩],
  [⟨15, true, 4308082049841391, 50⟩, ⟨17, false, 27850085047305, 36⟩, ⟨19, false, 4785308971466207, 41⟩,
    ⟨21, false, 1623638598305023, 39⟩, ⟨23, true, 7880784902279619, 46⟩, ⟨25, true, 7713438829986005, 42⟩,
    ⟨27, true, 5262535165368815, 44⟩],
  [⟨0, true, 4483755161109861, 45⟩, ⟨2, false, 6694310518078387, 44⟩, ⟨4, false, 2119709829398757, 40⟩,
    ⟨6, true, 3935559969524463, 44⟩, ⟨8, true, 6828136087274441, 41⟩, ⟨10, true, 7548965026607013, 42⟩,
    ⟨12, true, 6310285608903715, 45⟩],
  [⟨15, true, 7000633330992261, 46⟩, ⟨17, true, 5159690526598561, 42⟩, ⟨19, true, 6458540860183649, 41⟩,
    ⟨21, true, 2543271176991497, 41⟩, ⟨23, false, 1129605034618529, 39⟩, ⟨25, false, 8318414865422311, 43⟩,
    ⟨27, true, 5020470273052933, 44⟩],
  [⟨0, false, 5734449742511143, 46⟩, ⟨2, false, 2988754090706319, 43⟩, ⟨4, true, 5285529206747443, 42⟩,
    ⟨6, true, 8691028266033189, 42⟩, ⟨8, false, 7659315160588433, 42⟩, ⟨10, false, 6145631784481351, 41⟩,
    ⟨12, false, 1532064534854027, 41⟩],
  [⟨15, false, 6798691984905945, 44⟩, ⟨17, false, 4574355133408217, 41⟩, ⟨19, false, 5083713177476291, 41⟩,
    ⟨21, true, 2670028599075541, 41⟩, ⟨23, true, 8009495520916813, 42⟩, ⟨25, false, 4570230440394491, 44⟩,
    ⟨27, false, 4606417813219203, 44⟩],
  [⟨0, false, 2926685667624061, 48⟩, ⟨2, true, 2988754090706319, 43⟩, ⟨4, true, 8808728119581817, 45⟩,
    ⟨6, false, 8691028266033189, 42⟩, ⟨8, false, 8669197734664933, 43⟩, ⟨10, true, 6145631784481351, 41⟩,
    ⟨12, true, 7614815806898233, 42⟩],
  [⟨15, true, 8447879644610853, 43⟩, ⟨17, true, 5530190534418889, 41⟩, ⟨19, true, 4910762642851069, 44⟩,
    ⟨21, false, 4520729712741063, 41⟩, ⟨23, false, 8106428781077073, 45⟩, ⟨25, true, 2419881654437657, 42⟩,
    ⟨27, true, 5271690871385503, 48⟩],
  [⟨0, true, 2926685667624061, 47⟩, ⟨4, false, 8808728119581817, 44⟩, ⟨8, true, 8669197734664933, 42⟩,
    ⟨12, false, 7614815806898233, 41⟩],
  [⟨15, false, 8447879644610853, 42⟩, ⟨17, false, 6397724950764765, 42⟩, ⟨19, true, 6461638481699325, 42⟩,
    ⟨21, true, 2675372503885155, 42⟩, ⟨23, false, 2412369547012513, 42⟩, ⟨25, false, 3523491247832727, 45⟩,
    ⟨27, true, 3871641221095153, 46⟩],
  [⟨14, true, 604807468498279, 49⟩, ⟨16, false, 3131985558289667, 48⟩, ⟨18, false, 7993645384255421, 47⟩,
    ⟨20, true, 3274416157453939, 44⟩, ⟨22, true, 4940628405776021, 42⟩, ⟨24, true, 7352129782716475, 42⟩,
    ⟨26, true, 3964620856744335, 42⟩, ⟨28, true, 8694656885282361, 46⟩],
  [⟨1, false, 7827629695711897, 44⟩, ⟨3, false, 7269854200947735, 42⟩, ⟨5, false, 2354080264457439, 40⟩,
    ⟨7, false, 4659457481598643, 42⟩, ⟨9, false, 6988234139364179, 46⟩, ⟨11, true, 5651263018546907, 47⟩,
    ⟨13, true, 6154402928344845, 51⟩],
  [⟨14, true, 8963048385613839, 51⟩, ⟨16, true, 4523979139751741, 47⟩, ⟨18, false, 4357709616924795, 45⟩,
    ⟨20, false, 4876863979732353, 42⟩, ⟨22, false, 2069133966142205, 40⟩, ⟨24, false, 4556376599354211, 43⟩,
    ⟨26, true, 3328070174809307, 42⟩, ⟨28, true, 2588212643520949, 43⟩],
  [⟨1, false, 7670835111747627, 43⟩, ⟨3, false, 1155172989642903, 40⟩, ⟨5, true, 4545886614987125, 42⟩,
    ⟨7, true, 2287618770899563, 40⟩, ⟨9, true, 7616018766541103, 43⟩, ⟨11, true, 5593002575056733, 47⟩,
    ⟨13, false, 4308082049841391, 48⟩],
  [⟨14, false, 1814422405494837, 47⟩, ⟨16, true, 119624448406897, 42⟩, ⟨18, true, 2997617019095783, 42⟩,
    ⟨20, true, 8046999367840625, 42⟩, ⟨22, true, 7362837286158313, 43⟩, ⟨24, false, 5738777486530279, 42⟩,
    ⟨26, false, 7389362298787981, 43⟩, ⟨28, true, 2273734568429569, 46⟩],
  [⟨1, false, 8455780981254675, 54⟩, ⟨3, true, 6539646349678817, 42⟩, ⟨5, true, 5936577136549377, 42⟩,
    ⟨7, false, 738367327544367, 39⟩, ⟨9, false, 941806008328539, 39⟩, ⟨11, false, 7231577548217885, 44⟩,
    ⟨13, true, 4308082049841391, 50⟩],
  [⟨14, true, 5155735797034509, 51⟩, ⟨16, false, 4523979139751741, 44⟩, ⟨18, false, 732910594539079, 39⟩,
    ⟨20, false, 3100614875211161, 41⟩, ⟨22, true, 1212919735380041, 40⟩, ⟨24, true, 1803930153329463, 40⟩,
    ⟨26, false, 1542753568277731, 47⟩, ⟨28, false, 5264653759525497, 45⟩],
  [⟨1, true, 3421215411473053, 43⟩, ⟨3, false, 3070686822692577, 44⟩, ⟨5, false, 298105185808931, 37⟩,
    ⟨7, false, 3342291824124983, 42⟩, ⟨9, true, 3720243440326409, 41⟩, ⟨11, true, 4496977981897829, 42⟩,
    ⟨13, true, 7000633330992261, 46⟩],
  [⟨14, true, 5247448404962527, 46⟩, ⟨16, true, 2892736661475873, 42⟩, ⟨18, true, 207827167532071, 37⟩,
    ⟨20, false, 2641779490090227, 44⟩, ⟨22, false, 1167083531860441, 39⟩, ⟨24, false, 538160270171403, 40⟩,
    ⟨26, true, 2267452652435493, 42⟩, ⟨28, true, 4061017703696683, 46⟩],
  [⟨1, false, 2979546149022227, 44⟩, ⟨3, false, 101774040399925, 37⟩, ⟨5, true, 446314847329379, 39⟩,
    ⟨7, true, 5033744574464007, 41⟩, ⟨9, false, 5001626207310887, 44⟩, ⟨11, false, 1643581730023589, 40⟩,
    ⟨13, false, 6798691984905945, 44⟩],
  [⟨14, false, 2497619366580239, 43⟩, ⟨16, false, 4654478538013811, 42⟩, ⟨18, false, 410085962591687, 39⟩,
    ⟨20, true, 7522119495467435, 42⟩, ⟨22, true, 1431360256443745, 40⟩, ⟨24, false, 727609612986657, 40⟩,
    ⟨26, false, 5757572263642379, 44⟩, ⟨28, true, 601818027914407, 44⟩],
  [⟨1, false, 5189563938941529, 46⟩, ⟨3, true, 989722624229283, 41⟩, ⟨5, true, 3425673144647147, 42⟩,
    ⟨7, false, 6366086921596971, 42⟩, ⟨9, false, 1922332285603023, 40⟩, ⟨11, true, 1165664029518253, 40⟩,
    ⟨13, true, 8447879644610853, 43⟩],
  [⟨14, true, 3090497999250043, 42⟩, ⟨16, true, 4654478538013811, 42⟩, ⟨18, false, 6917751239704113, 43⟩,
    ⟨20, false, 7522119495467435, 42⟩, ⟨22, true, 5988053729768463, 44⟩, ⟨24, true, 727609612986657, 40⟩,
    ⟨26, false, 6935235428454439, 47⟩, ⟨28, false, 601818027914407, 44⟩],
  [⟨1, true, 3871641221095153, 46⟩, ⟨3, true, 3523491247832727, 45⟩, ⟨5, false, 2412369547012513, 42⟩,
    ⟨7, false, 2675372503885155, 42⟩, ⟨9, true, 6461638481699325, 42⟩, ⟨11, true, 6397724950764765, 42⟩,
    ⟨13, false, 8447879644610853, 42⟩],
  [⟨14, false, 3090497999250043, 41⟩, ⟨18, true, 6917751239704113, 42⟩, ⟨22, false, 5988053729768463, 43⟩,
    ⟨26, true, 6935235428454439, 46⟩]]

/-- The array `s2t15`: so3/_tensor_conversion_lut.npz. -/
def shippedS2t15 : List (List ShippedEntry) := [
  [⟨1, false, 4189230817019273, 65⟩, ⟨6, true, 4189230817019273, 65⟩, ⟨15, false, 4189230817019273, 65⟩,
    ⟨28, true, 4189230817019273, 65⟩, ⟨45, false, 4189230817019273, 65⟩, ⟨66, true, 4189230817019273, 65⟩,
    ⟨91, false, 4189230817019273, 65⟩, ⟨120, true, 4189230817019273, 65⟩],
  [⟨4, false, 6118763245539341, 67⟩, ⟨11, true, 6118763245539341, 67⟩, ⟨22, false, 6118763245539341, 67⟩,
    ⟨37, true, 6118763245539341, 67⟩, ⟨56, false, 6118763245539341, 67⟩, ⟨79, true, 6118763245539341, 67⟩,
    ⟨106, false, 6118763245539341, 67⟩],
  [⟨1, true, 1305578584838043, 64⟩, ⟨6, false, 3615448388782273, 66⟩, ⟨8, false, 6427463802279597, 68⟩,
    ⟨15, true, 1004291219106187, 65⟩, ⟨17, true, 6427463802279597, 68⟩, ⟨28, false, 6427463802279597, 70⟩,
    ⟨30, false, 6427463802279597, 68⟩, ⟨45, false, 4820597851709697, 68⟩, ⟨47, true, 6427463802279597, 68⟩,
    ⟨66, true, 5624030826994647, 67⟩, ⟨68, false, 6427463802279597, 68⟩, ⟨91, false, 8837762728134445, 67⟩,
    ⟨93, true, 6427463802279597, 68⟩, ⟨120, true, 3012873657318561, 65⟩, ⟨122, false, 6427463802279597, 68⟩],
  [⟨4, true, 6311644157257485, 67⟩, ⟨11, false, 8415525543009979, 68⟩, ⟨13, false, 8415525543009979, 69⟩,
    ⟨22, true, 8415525543009979, 69⟩, ⟨24, true, 8415525543009979, 69⟩, ⟨39, false, 8415525543009979, 69⟩,
    ⟨56, false, 8415525543009979, 69⟩, ⟨58, true, 8415525543009979, 69⟩, ⟨79, true, 8415525543009979, 68⟩,
    ⟨81, false, 8415525543009979, 69⟩, ⟨106, false, 6311644157257485, 67⟩, ⟨108, true, 8415525543009979, 69⟩],
  [⟨1, false, 7794174108279827, 67⟩, ⟨6, true, 1670180166059963, 66⟩, ⟨8, true, 4453813776159901, 67⟩,
    ⟨15, false, 8097843229381639, 71⟩, ⟨17, false, 5668490260567147, 68⟩, ⟨19, false, 6478274583505311, 69⟩,
    ⟨28, false, 5668490260567147, 70⟩, ⟨30, true, 4858705937628983, 69⟩, ⟨32, true, 6478274583505311, 69⟩,
    ⟨45, true, 4858705937628983, 71⟩, ⟨47, true, 6478274583505311, 71⟩, ⟨49, false, 6478274583505311, 69⟩,
    ⟨66, true, 6883166744974393, 69⟩, ⟨68, false, 8097843229381639, 69⟩, ⟨70, true, 6478274583505311, 69⟩,
    ⟨91, false, 670602642433167, 64⟩, ⟨93, true, 7288058906443475, 68⟩, ⟨95, false, 6478274583505311, 69⟩,
    ⟨120, true, 1328552404820425, 64⟩, ⟨122, false, 5263598099098065, 67⟩, ⟨124, true, 6478274583505311, 69⟩],
  [⟨4, false, 5770601154028991, 67⟩, ⟨11, true, 8877847929275371, 69⟩, ⟨13, true, 7102278343420297, 68⟩,
    ⟨22, false, 2840911337368119, 72⟩, ⟨24, false, 2130683503026089, 67⟩, ⟨26, false, 2840911337368119, 68⟩,
    ⟨37, false, 155362338762319, 65⟩, ⟨39, true, 2840911337368119, 69⟩, ⟨41, true, 2840911337368119, 68⟩,
    ⟨56, false, 2840911337368119, 72⟩, ⟨58, true, 2840911337368119, 69⟩, ⟨60, false, 2840911337368119, 68⟩,
    ⟨79, true, 8877847929275371, 69⟩, ⟨81, false, 2130683503026089, 67⟩, ⟨83, true, 2840911337368119, 68⟩,
    ⟨106, false, 5770601154028991, 67⟩, ⟨108, true, 7102278343420297, 68⟩, ⟨110, false, 2840911337368119, 68⟩],
  [⟨1, true, 2968355950662225, 66⟩, ⟨6, false, 4958133016490749, 69⟩, ⟨8, false, 2348589323600881, 66⟩,
    ⟨15, false, 652385923222467, 68⟩, ⟨17, true, 6262904862935683, 69⟩, ⟨19, true, 6262904862935683, 68⟩,
    ⟨28, true, 4871148226727753, 72⟩, ⟨30, true, 2783513272415859, 71⟩, ⟨32, false, 217461974407489, 64⟩,
    ⟨34, false, 2783513272415859, 68⟩, ⟨45, true, 5914965703883701, 71⟩, ⟨47, false, 8350539817247577, 71⟩,
    ⟨49, true, 2783513272415859, 70⟩, ⟨51, true, 2783513272415859, 68⟩, ⟨66, true, 4871148226727753, 72⟩,
    ⟨68, false, 8350539817247577, 71⟩, ⟨70, true, 8350539817247577, 70⟩, ⟨72, false, 2783513272415859, 68⟩,
    ⟨91, false, 6219412468054185, 68⟩, ⟨93, true, 5914965703883701, 68⟩, ⟨95, false, 4871148226727753, 68⟩,
    ⟨97, true, 2783513272415859, 68⟩, ⟨120, true, 4947259917770375, 66⟩, ⟨122, false, 6784813601513657, 67⟩,
    ⟨124, true, 7654661499143613, 68⟩, ⟨126, false, 2783513272415859, 68⟩],
  [⟨4, true, 2442812091024487, 66⟩, ⟨11, false, 187908622386499, 65⟩, ⟨13, false, 2066994846251489, 66⟩,
    ⟨22, false, 187908622386499, 66⟩, ⟨24, true, 563725867159497, 66⟩, ⟨26, true, 187908622386499, 63⟩,
    ⟨39, true, 187908622386499, 66⟩, ⟨41, false, 187908622386499, 64⟩, ⟨43, false, 187908622386499, 64⟩,
    ⟨56, true, 187908622386499, 66⟩, ⟨58, false, 187908622386499, 66⟩, ⟨62, true, 187908622386499, 64⟩,
    ⟨79, true, 187908622386499, 65⟩, ⟨81, false, 563725867159497, 66⟩, ⟨83, true, 187908622386499, 64⟩,
    ⟨85, false, 187908622386499, 64⟩, ⟨106, false, 2442812091024487, 66⟩, ⟨108, true, 2066994846251489, 66⟩,
    ⟨110, false, 187908622386499, 63⟩, ⟨112, true, 187908622386499, 64⟩],
  [⟨1, false, 4412119166938691, 67⟩, ⟨6, true, 1163635824247567, 70⟩, ⟨8, true, 4266664688907745, 67⟩,
    ⟨15, true, 3878786080825223, 71⟩, ⟨17, false, 6206057729320357, 71⟩, ⟨19, false, 3878786080825223, 67⟩,
    ⟨28, true, 1163635824247567, 70⟩, ⟨30, false, 6206057729320357, 71⟩, ⟨32, true, 6206057729320357, 70⟩,
    ⟨34, true, 6206057729320357, 68⟩, ⟨45, true, 5319478053703163, 75⟩, ⟨47, false, 5319478053703163, 72⟩,
    ⟨49, true, 4432898378085969, 70⟩, ⟨51, false, 5319478053703163, 69⟩, ⟨53, false, 3546318702468775, 68⟩,
    ⟨66, false, 4765365756442417, 71⟩, ⟨68, true, 4432898378085969, 71⟩, ⟨70, false, 3546318702468775, 72⟩,
    ⟨72, false, 3546318702468775, 70⟩, ⟨74, true, 3546318702468775, 68⟩, ⟨91, false, 6122940884731245, 69⟩,
    ⟨93, true, 7314282323841849, 69⟩, ⟨95, false, 8422506918363341, 69⟩, ⟨97, true, 4432898378085969, 68⟩,
    ⟨99, false, 3546318702468775, 68⟩, ⟨120, true, 1181817634001435, 64⟩, ⟨122, false, 3961902925414335, 66⟩,
    ⟨124, true, 6095235269868207, 67⟩, ⟨126, false, 997402135069343, 65⟩, ⟨128, true, 3546318702468775, 68⟩],
  [⟨4, false, 7602124876467523, 68⟩, ⟨11, false, 6237640924281045, 73⟩, ⟨13, true, 3898525577675653, 67⟩,
    ⟨22, true, 673381690689431, 69⟩, ⟨24, false, 4536466126749851, 73⟩, ⟨26, false, 7655286588890373, 68⟩,
    ⟨37, true, 5954111791359179, 72⟩, ⟨39, false, 5670582658437313, 71⟩, ⟨41, true, 850587398765597, 68⟩,
    ⟨43, true, 850587398765597, 65⟩, ⟨56, true, 673381690689431, 69⟩, ⟨58, false, 5670582658437313, 71⟩,
    ⟨60, true, 5670582658437313, 70⟩, ⟨62, false, 4536466126749851, 69⟩, ⟨64, false, 4536466126749851, 68⟩,
    ⟨79, false, 6237640924281045, 73⟩, ⟨81, false, 4536466126749851, 73⟩, ⟨83, true, 850587398765597, 68⟩,
    ⟨85, false, 4536466126749851, 69⟩, ⟨87, true, 4536466126749851, 68⟩, ⟨106, false, 7602124876467523, 68⟩,
    ⟨108, true, 3898525577675653, 67⟩, ⟨110, false, 7655286588890373, 68⟩, ⟨112, true, 850587398765597, 65⟩,
    ⟨114, false, 4536466126749851, 68⟩],
  [⟨1, true, 6120291980914985, 68⟩, ⟨6, true, 4842428820064603, 71⟩, ⟨8, false, 1681398895855765, 66⟩,
    ⟨15, true, 3130459035193279, 77⟩, ⟨17, false, 2445671121244749, 70⟩, ⟨19, true, 7337013363734247, 68⟩,
    ⟨28, false, 8217454967382357, 74⟩, ⟨30, true, 7826147587983197, 74⟩, ⟨32, true, 7826147587983197, 72⟩,
    ⟨34, false, 7826147587983197, 68⟩, ⟨45, false, 7630493898283617, 73⟩, ⟨47, true, 2934805345493699, 71⟩,
    ⟨49, false, 7826147587983197, 72⟩, ⟨53, true, 7826147587983197, 68⟩, ⟨66, false, 7532667053433827, 72⟩,
    ⟨68, true, 2836978500643909, 70⟩, ⟨70, false, 8608762346781517, 71⟩, ⟨72, true, 3130459035193279, 69⟩,
    ⟨74, false, 3130459035193279, 69⟩, ⟨76, false, 3130459035193279, 67⟩, ⟨91, false, 3497309703379991, 70⟩,
    ⟨93, true, 336279779171153, 66⟩, ⟨95, false, 8217454967382357, 70⟩, ⟨97, true, 3130459035193279, 68⟩,
    ⟨99, false, 2347844276394959, 67⟩, ⟨101, true, 3130459035193279, 67⟩, ⟨120, true, 2295109492843119, 65⟩,
    ⟨122, false, 4371637129224989, 66⟩, ⟨124, true, 1008839337513459, 64⟩, ⟨126, false, 3521766414592439, 66⟩,
    ⟨128, true, 2739151655794119, 66⟩, ⟨130, false, 3130459035193279, 67⟩],
  [⟨4, true, 5187348586222335, 68⟩, ⟨11, true, 6384429029196719, 71⟩, ⟨13, false, 1496350553717981, 66⟩,
    ⟨22, true, 1451006597544709, 71⟩, ⟨24, false, 1958858906685357, 69⟩, ⟨26, true, 6964831668214603, 68⟩,
    ⟨39, false, 1451006597544709, 71⟩, ⟨41, true, 4643221112143069, 70⟩, ⟨43, false, 4062818473125185, 67⟩,
    ⟨56, false, 1451006597544709, 71⟩, ⟨58, true, 1451006597544709, 71⟩, ⟨62, false, 4643221112143069, 70⟩,
    ⟨64, true, 4643221112143069, 67⟩, ⟨79, false, 6384429029196719, 71⟩, ⟨81, true, 1958858906685357, 69⟩,
    ⟨83, false, 4643221112143069, 70⟩, ⟨85, true, 4643221112143069, 70⟩, ⟨89, false, 4643221112143069, 67⟩,
    ⟨106, false, 5187348586222335, 68⟩, ⟨108, true, 1496350553717981, 66⟩, ⟨110, false, 6964831668214603, 68⟩,
    ⟨112, true, 4062818473125185, 67⟩, ⟨114, false, 4643221112143069, 67⟩, ⟨116, true, 4643221112143069, 67⟩],
  [⟨1, false, 3607175801159223, 68⟩, ⟨6, false, 2695472027239859, 70⟩, ⟨8, true, 8562087615938375, 69⟩,
    ⟨15, false, 7495430236175009, 73⟩, ⟨17, true, 3632400806761735, 70⟩, ⟨19, false, 2594572004829811, 67⟩,
    ⟨28, false, 504500112050241, 70⟩, ⟨30, true, 1441428891572117, 70⟩, ⟨32, false, 1268457424583463, 68⟩,
    ⟨34, true, 1614400358560771, 66⟩, ⟨45, false, 1441428891572117, 72⟩, ⟨47, true, 3459429339773081, 72⟩,
    ⟨49, false, 4612572453030775, 71⟩, ⟨51, true, 7380115924849239, 70⟩, ⟨53, false, 4151315207727697, 67⟩,
    ⟨66, false, 1268457424583463, 73⟩, ⟨68, true, 4151315207727697, 73⟩, ⟨70, false, 2767543471818465, 71⟩,
    ⟨72, true, 7380115924849239, 71⟩, ⟨74, false, 2767543471818465, 68⟩, ⟨76, true, 2767543471818465, 66⟩,
    ⟨91, true, 4122486629896255, 71⟩, ⟨93, false, 3805372273750389, 71⟩, ⟨95, true, 2767543471818465, 71⟩,
    ⟨99, false, 7380115924849239, 71⟩, ⟨101, true, 7380115924849239, 69⟩, ⟨103, false, 7380115924849239, 67⟩,
    ⟨120, true, 4508969751449029, 66⟩, ⟨122, false, 4637797458633287, 66⟩, ⟨124, true, 2378357671093993, 65⟩,
    ⟨126, false, 4843201075682313, 66⟩, ⟨128, true, 4843201075682313, 66⟩, ⟨130, false, 4612572453030775, 66⟩,
    ⟨132, true, 7380115924849239, 67⟩],
  [⟨4, false, 2627579971295795, 68⟩, ⟨11, false, 4850916870084545, 71⟩, ⟨13, true, 3233944580056363, 68⟩,
    ⟨22, false, 2204962213674793, 71⟩, ⟨24, true, 3527939541879669, 70⟩, ⟨26, false, 8231858931052561, 69⟩,
    ⟨37, false, 857485305317975, 70⟩, ⟨39, true, 3919932824310743, 71⟩, ⟨41, false, 171497061063595, 65⟩,
    ⟨43, true, 171497061063595, 63⟩, ⟨56, false, 2204962213674793, 71⟩, ⟨58, true, 3919932824310743, 71⟩,
    ⟨60, false, 3919932824310743, 70⟩, ⟨62, true, 1175979847293223, 67⟩, ⟨64, false, 3919932824310743, 67⟩,
    ⟨79, false, 4850916870084545, 71⟩, ⟨81, true, 3527939541879669, 70⟩, ⟨83, false, 171497061063595, 65⟩,
    ⟨85, true, 1175979847293223, 67⟩, ⟨87, false, 1175979847293223, 66⟩, ⟨89, true, 6271892518897189, 67⟩,
    ⟨106, false, 2627579971295795, 68⟩, ⟨108, true, 3233944580056363, 68⟩, ⟨110, false, 8231858931052561, 69⟩,
    ⟨112, true, 171497061063595, 63⟩, ⟨114, false, 3919932824310743, 67⟩, ⟨116, true, 6271892518897189, 67⟩,
    ⟨118, false, 6271892518897189, 66⟩],
  [⟨1, true, 2384489969855033, 69⟩, ⟨6, true, 2201067664481569, 71⟩, ⟨8, false, 2934756885975425, 69⟩,
    ⟨15, true, 4001941208148307, 73⟩, ⟨17, false, 6403105933037291, 72⟩, ⟨19, true, 7470290255210173, 70⟩,
    ⟨28, true, 6225241879341811, 74⟩, ⟨30, false, 7114562147819213, 73⟩, ⟨32, true, 4980193503473449, 71⟩,
    ⟨34, false, 4980193503473449, 69⟩, ⟨45, true, 4001941208148307, 73⟩, ⟨47, false, 7114562147819213, 73⟩,
    ⟨49, true, 7114562147819213, 72⟩, ⟨51, false, 8537474577383055, 71⟩, ⟨53, true, 7114562147819213, 69⟩,
    ⟨66, true, 2201067664481569, 71⟩, ⟨68, false, 6403105933037291, 72⟩, ⟨70, true, 4980193503473449, 71⟩,
    ⟨72, false, 8537474577383055, 71⟩, ⟨74, true, 8537474577383055, 70⟩, ⟨76, false, 2845824859127685, 67⟩,
    ⟨91, true, 2384489969855033, 69⟩, ⟨93, false, 2934756885975425, 69⟩, ⟨95, true, 7470290255210173, 70⟩,
    ⟨97, false, 4980193503473449, 69⟩, ⟨99, true, 7114562147819213, 69⟩, ⟨101, false, 2845824859127685, 67⟩,
    ⟨103, true, 2845824859127685, 66⟩, ⟨120, true, 4470918693478187, 66⟩, ⟨122, false, 2384489969855033, 65⟩,
    ⟨124, true, 2567912275228497, 65⟩, ⟨126, false, 2801358845703815, 65⟩, ⟨128, true, 6225241879341811, 66⟩,
    ⟨130, false, 7114562147819213, 66⟩, ⟨132, true, 8537474577383055, 66⟩, ⟨134, false, 2845824859127685, 64⟩],
  [⟨2, true, 1632548680793019, 65⟩, ⟨7, true, 8037162736211785, 71⟩, ⟨9, false, 219766168568291, 62⟩,
    ⟨16, true, 2191953473512305, 71⟩, ⟨18, false, 5114558104862045, 70⟩, ⟨20, true, 1917959289323267, 65⟩,
    ⟨29, true, 2435503859458117, 72⟩, ⟨31, false, 6819410806482727, 72⟩, ⟨33, true, 6819410806482727, 70⟩,
    ⟨35, false, 8524263508103409, 67⟩, ⟨46, true, 2435503859458117, 72⟩, ⟨48, false, 2435503859458117, 71⟩,
    ⟨50, true, 730651157837435, 68⟩, ⟨52, false, 2435503859458117, 68⟩, ⟨54, true, 2435503859458117, 65⟩,
    ⟨67, true, 2191953473512305, 71⟩, ⟨69, false, 6819410806482727, 72⟩, ⟨71, true, 730651157837435, 68⟩,
    ⟨73, false, 730651157837435, 67⟩, ⟨75, true, 3896806175132987, 68⟩, ⟨77, false, 730651157837435, 63⟩,
    ⟨92, true, 8037162736211785, 71⟩, ⟨94, false, 5114558104862045, 70⟩, ⟨96, true, 6819410806482727, 70⟩,
    ⟨98, false, 2435503859458117, 68⟩, ⟨100, true, 3896806175132987, 68⟩, ⟨102, false, 3896806175132987, 67⟩,
    ⟨104, true, 3896806175132987, 65⟩, ⟨121, true, 1632548680793019, 65⟩, ⟨123, false, 219766168568291, 62⟩,
    ⟨125, true, 1917959289323267, 65⟩, ⟨127, false, 8524263508103409, 67⟩, ⟨129, true, 2435503859458117, 65⟩,
    ⟨131, false, 730651157837435, 63⟩, ⟨133, true, 3896806175132987, 65⟩, ⟨135, false, 3896806175132987, 64⟩],
  [⟨0, true, 4470918693478187, 66⟩, ⟨3, true, 2384489969855033, 69⟩, ⟨5, false, 2384489969855033, 65⟩,
    ⟨10, true, 2201067664481569, 71⟩, ⟨12, false, 2934756885975425, 69⟩, ⟨14, true, 2567912275228497, 65⟩,
    ⟨21, true, 4001941208148307, 73⟩, ⟨23, false, 6403105933037291, 72⟩, ⟨25, true, 7470290255210173, 70⟩,
    ⟨27, false, 2801358845703815, 65⟩, ⟨36, true, 6225241879341811, 74⟩, ⟨38, false, 7114562147819213, 73⟩,
    ⟨40, true, 4980193503473449, 71⟩, ⟨42, false, 4980193503473449, 69⟩, ⟨44, true, 6225241879341811, 66⟩,
    ⟨55, true, 4001941208148307, 73⟩, ⟨57, false, 7114562147819213, 73⟩, ⟨59, true, 7114562147819213, 72⟩,
    ⟨61, false, 8537474577383055, 71⟩, ⟨63, true, 7114562147819213, 69⟩, ⟨65, false, 7114562147819213, 66⟩,
    ⟨78, true, 2201067664481569, 71⟩, ⟨80, false, 6403105933037291, 72⟩, ⟨82, true, 4980193503473449, 71⟩,
    ⟨84, false, 8537474577383055, 71⟩, ⟨86, true, 8537474577383055, 70⟩, ⟨88, false, 2845824859127685, 67⟩,
    ⟨90, true, 8537474577383055, 66⟩, ⟨105, true, 2384489969855033, 69⟩, ⟨107, false, 2934756885975425, 69⟩,
    ⟨109, true, 7470290255210173, 70⟩, ⟨111, false, 4980193503473449, 69⟩, ⟨113, true, 7114562147819213, 69⟩,
    ⟨115, false, 2845824859127685, 67⟩, ⟨117, true, 2845824859127685, 66⟩, ⟨119, false, 2845824859127685, 64⟩],
  [⟨2, false, 4598264949767641, 66⟩, ⟨7, false, 2021215362535227, 69⟩, ⟨9, true, 4850916870084545, 66⟩,
    ⟨16, false, 5291909312819503, 73⟩, ⟨18, true, 1175979847293223, 68⟩, ⟨20, false, 2572455915953925, 65⟩,
    ⟨29, false, 3919932824310743, 75⟩, ⟨31, true, 6271892518897189, 73⟩, ⟨33, false, 171497061063595, 65⟩,
    ⟨35, true, 171497061063595, 61⟩, ⟨46, true, 3919932824310743, 75⟩, ⟨50, false, 6271892518897189, 73⟩,
    ⟨52, true, 6271892518897189, 70⟩, ⟨54, false, 5879899236466115, 66⟩, ⟨67, true, 5291909312819503, 73⟩,
    ⟨69, false, 6271892518897189, 73⟩, ⟨71, true, 6271892518897189, 73⟩, ⟨75, false, 6271892518897189, 70⟩,
    ⟨77, true, 6271892518897189, 66⟩, ⟨92, true, 2021215362535227, 69⟩, ⟨94, false, 1175979847293223, 68⟩,
    ⟨96, true, 171497061063595, 65⟩, ⟨98, false, 6271892518897189, 70⟩, ⟨100, true, 6271892518897189, 70⟩,
    ⟨104, false, 6271892518897189, 66⟩, ⟨121, true, 4598264949767641, 66⟩, ⟨123, false, 4850916870084545, 66⟩,
    ⟨125, true, 2572455915953925, 65⟩, ⟨127, false, 171497061063595, 61⟩, ⟨129, true, 5879899236466115, 66⟩,
    ⟨131, false, 6271892518897189, 66⟩, ⟨133, true, 6271892518897189, 66⟩],
  [⟨0, false, 4508969751449029, 66⟩, ⟨3, false, 4122486629896255, 71⟩, ⟨5, true, 4637797458633287, 66⟩,
    ⟨10, true, 1268457424583463, 73⟩, ⟨12, true, 3805372273750389, 71⟩, ⟨14, false, 2378357671093993, 65⟩,
    ⟨21, true, 1441428891572117, 72⟩, ⟨23, false, 4151315207727697, 73⟩, ⟨25, false, 2767543471818465, 71⟩,
    ⟨27, true, 4843201075682313, 66⟩, ⟨36, true, 504500112050241, 70⟩, ⟨38, false, 3459429339773081, 72⟩,
    ⟨40, true, 2767543471818465, 71⟩, ⟨44, false, 4843201075682313, 66⟩, ⟨55, true, 7495430236175009, 73⟩,
    ⟨57, false, 1441428891572117, 70⟩, ⟨59, true, 4612572453030775, 71⟩, ⟨61, false, 7380115924849239, 71⟩,
    ⟨63, true, 7380115924849239, 71⟩, ⟨65, true, 4612572453030775, 66⟩, ⟨78, true, 2695472027239859, 70⟩,
    ⟨80, false, 3632400806761735, 70⟩, ⟨82, true, 1268457424583463, 68⟩, ⟨84, false, 7380115924849239, 70⟩,
    ⟨86, true, 2767543471818465, 68⟩, ⟨88, false, 7380115924849239, 69⟩, ⟨90, false, 7380115924849239, 67⟩,
    ⟨105, true, 3607175801159223, 68⟩, ⟨107, false, 8562087615938375, 69⟩, ⟨109, true, 2594572004829811, 67⟩,
    ⟨111, false, 1614400358560771, 66⟩, ⟨113, true, 4151315207727697, 67⟩, ⟨115, false, 2767543471818465, 66⟩,
    ⟨117, true, 7380115924849239, 67⟩],
  [⟨2, true, 4538930012944543, 66⟩, ⟨7, false, 6384429029196719, 73⟩, ⟨9, false, 8978103322307887, 67⟩,
    ⟨16, false, 2756912535334947, 71⟩, ⟨18, true, 4353019792634127, 71⟩, ⟨20, true, 4353019792634127, 66⟩,
    ⟨29, false, 4353019792634127, 72⟩, ⟨31, true, 2466711215826005, 70⟩, ⟨33, false, 4643221112143069, 70⟩,
    ⟨35, false, 4062818473125185, 66⟩, ⟨46, false, 4353019792634127, 72⟩, ⟨48, true, 4353019792634127, 71⟩,
    ⟨50, false, 4643221112143069, 70⟩, ⟨52, true, 4643221112143069, 69⟩, ⟨54, true, 6964831668214603, 67⟩,
    ⟨67, false, 2756912535334947, 71⟩, ⟨69, true, 2466711215826005, 70⟩, ⟨71, false, 4643221112143069, 70⟩,
    ⟨73, true, 4643221112143069, 69⟩, ⟨75, false, 4643221112143069, 68⟩, ⟨77, false, 4643221112143069, 67⟩,
    ⟨92, false, 6384429029196719, 73⟩, ⟨94, true, 4353019792634127, 71⟩, ⟨96, false, 4643221112143069, 70⟩,
    ⟨98, true, 4643221112143069, 69⟩, ⟨100, false, 4643221112143069, 68⟩, ⟨102, true, 4643221112143069, 67⟩,
    ⟨121, true, 4538930012944543, 66⟩, ⟨123, false, 8978103322307887, 67⟩, ⟨125, true, 4353019792634127, 66⟩,
    ⟨127, false, 4062818473125185, 66⟩, ⟨129, true, 6964831668214603, 67⟩, ⟨131, false, 4643221112143069, 67⟩],
  [⟨0, true, 2295109492843119, 65⟩, ⟨3, false, 3497309703379991, 70⟩, ⟨5, false, 4371637129224989, 66⟩,
    ⟨10, false, 7532667053433827, 72⟩, ⟨12, true, 336279779171153, 66⟩, ⟨14, true, 1008839337513459, 64⟩,
    ⟨21, false, 7630493898283617, 73⟩, ⟨23, true, 2836978500643909, 70⟩, ⟨25, false, 8217454967382357, 70⟩,
    ⟨27, false, 3521766414592439, 66⟩, ⟨36, false, 8217454967382357, 74⟩, ⟨38, true, 2934805345493699, 71⟩,
    ⟨40, false, 8608762346781517, 71⟩, ⟨42, true, 3130459035193279, 68⟩, ⟨44, true, 2739151655794119, 66⟩,
    ⟨55, true, 3130459035193279, 77⟩, ⟨57, true, 7826147587983197, 74⟩, ⟨59, false, 7826147587983197, 72⟩,
    ⟨61, true, 3130459035193279, 69⟩, ⟨63, false, 2347844276394959, 67⟩, ⟨65, false, 3130459035193279, 67⟩,
    ⟨78, true, 4842428820064603, 71⟩, ⟨80, false, 2445671121244749, 70⟩, ⟨82, true, 7826147587983197, 72⟩,
    ⟨86, false, 3130459035193279, 69⟩, ⟨88, true, 3130459035193279, 67⟩, ⟨105, true, 6120291980914985, 68⟩,
    ⟨107, false, 1681398895855765, 66⟩, ⟨109, true, 7337013363734247, 68⟩, ⟨111, false, 7826147587983197, 68⟩,
    ⟨113, true, 7826147587983197, 68⟩, ⟨115, false, 3130459035193279, 67⟩],
  [⟨2, false, 4434572844606055, 66⟩, ⟨7, true, 2144189067721609, 68⟩, ⟨9, true, 3898525577675653, 66⟩,
    ⟨16, true, 1382204522994095, 69⟩, ⟨18, false, 5670582658437313, 69⟩, ⟨20, false, 3189702745370989, 66⟩,
    ⟨29, true, 2551762196296791, 72⟩, ⟨31, false, 850587398765597, 68⟩, ⟨33, true, 7371757455968507, 69⟩,
    ⟨35, true, 4536466126749851, 67⟩, ⟨46, false, 2551762196296791, 72⟩, ⟨50, true, 850587398765597, 68⟩,
    ⟨52, false, 4536466126749851, 68⟩, ⟨54, false, 4536466126749851, 68⟩, ⟨67, false, 1382204522994095, 69⟩,
    ⟨69, true, 850587398765597, 68⟩, ⟨71, false, 850587398765597, 68⟩, ⟨75, true, 4536466126749851, 68⟩,
    ⟨92, false, 2144189067721609, 68⟩, ⟨94, true, 5670582658437313, 69⟩, ⟨96, false, 7371757455968507, 69⟩,
    ⟨98, true, 4536466126749851, 68⟩, ⟨100, false, 4536466126749851, 68⟩, ⟨121, true, 4434572844606055, 66⟩,
    ⟨123, false, 3898525577675653, 66⟩, ⟨125, true, 3189702745370989, 66⟩, ⟨127, false, 4536466126749851, 67⟩,
    ⟨129, true, 4536466126749851, 68⟩],
  [⟨0, false, 1181817634001435, 64⟩, ⟨3, true, 6122940884731245, 69⟩, ⟨5, true, 3961902925414335, 66⟩,
    ⟨10, true, 4765365756442417, 71⟩, ⟨12, false, 7314282323841849, 69⟩, ⟨14, false, 6095235269868207, 67⟩,
    ⟨21, false, 5319478053703163, 75⟩, ⟨23, false, 4432898378085969, 71⟩, ⟨25, true, 8422506918363341, 69⟩,
    ⟨27, true, 997402135069343, 65⟩, ⟨36, false, 1163635824247567, 70⟩, ⟨38, true, 5319478053703163, 72⟩,
    ⟨40, true, 3546318702468775, 72⟩, ⟨42, false, 4432898378085969, 68⟩, ⟨44, false, 3546318702468775, 68⟩,
    ⟨55, false, 3878786080825223, 71⟩, ⟨57, true, 6206057729320357, 71⟩, ⟨59, false, 4432898378085969, 70⟩,
    ⟨61, true, 3546318702468775, 70⟩, ⟨63, true, 3546318702468775, 68⟩, ⟨78, false, 1163635824247567, 70⟩,
    ⟨80, true, 6206057729320357, 71⟩, ⟨82, false, 6206057729320357, 70⟩, ⟨84, true, 5319478053703163, 69⟩,
    ⟨86, false, 3546318702468775, 68⟩, ⟨105, true, 4412119166938691, 67⟩, ⟨107, false, 4266664688907745, 67⟩,
    ⟨109, true, 3878786080825223, 67⟩, ⟨111, false, 6206057729320357, 68⟩, ⟨113, true, 3546318702468775, 68⟩],
  [⟨2, true, 1068730289823213, 64⟩, ⟨7, false, 4697715559662475, 68⟩, ⟨9, false, 6200984538754467, 67⟩,
    ⟨16, false, 187908622386499, 68⟩, ⟨18, true, 2442812091024487, 67⟩, ⟨20, true, 939543111932495, 65⟩,
    ⟨29, true, 563725867159497, 68⟩, ⟨31, false, 187908622386499, 67⟩, ⟨33, false, 563725867159497, 65⟩,
    ⟨35, false, 187908622386499, 64⟩, ⟨46, true, 563725867159497, 68⟩, ⟨48, false, 563725867159497, 67⟩,
    ⟨50, true, 187908622386499, 65⟩, ⟨52, true, 187908622386499, 64⟩, ⟨67, false, 187908622386499, 68⟩,
    ⟨69, false, 187908622386499, 67⟩, ⟨71, true, 187908622386499, 65⟩, ⟨73, false, 187908622386499, 64⟩,
    ⟨92, false, 4697715559662475, 68⟩, ⟨94, true, 2442812091024487, 67⟩, ⟨96, false, 563725867159497, 65⟩,
    ⟨98, true, 187908622386499, 64⟩, ⟨121, true, 1068730289823213, 64⟩, ⟨123, false, 6200984538754467, 67⟩,
    ⟨125, true, 939543111932495, 65⟩, ⟨127, false, 187908622386499, 64⟩],
  [⟨0, true, 4947259917770375, 66⟩, ⟨3, false, 6219412468054185, 68⟩, ⟨5, false, 6784813601513657, 67⟩,
    ⟨10, true, 4871148226727753, 72⟩, ⟨12, true, 5914965703883701, 68⟩, ⟨14, true, 7654661499143613, 68⟩,
    ⟨21, true, 5914965703883701, 71⟩, ⟨23, false, 8350539817247577, 71⟩, ⟨25, false, 4871148226727753, 68⟩,
    ⟨27, false, 2783513272415859, 68⟩, ⟨36, true, 4871148226727753, 72⟩, ⟨38, false, 8350539817247577, 71⟩,
    ⟨40, true, 8350539817247577, 70⟩, ⟨42, true, 2783513272415859, 68⟩, ⟨55, false, 652385923222467, 68⟩,
    ⟨57, true, 2783513272415859, 71⟩, ⟨59, true, 2783513272415859, 70⟩, ⟨61, false, 2783513272415859, 68⟩,
    ⟨78, false, 4958133016490749, 69⟩, ⟨80, true, 6262904862935683, 69⟩, ⟨82, false, 217461974407489, 64⟩,
    ⟨84, true, 2783513272415859, 68⟩, ⟨105, true, 2968355950662225, 66⟩, ⟨107, false, 2348589323600881, 66⟩,
    ⟨109, true, 6262904862935683, 68⟩, ⟨111, false, 2783513272415859, 68⟩],
  [⟨2, false, 2019710403910147, 65⟩, ⟨7, true, 7634949219176819, 68⟩, ⟨9, true, 2130683503026089, 66⟩,
    ⟨16, false, 7812506177762327, 70⟩, ⟨18, false, 2840911337368119, 67⟩, ⟨20, false, 2840911337368119, 68⟩,
    ⟨29, false, 7102278343420297, 71⟩, ⟨31, true, 2840911337368119, 68⟩, ⟨33, true, 2840911337368119, 68⟩,
    ⟨46, true, 7102278343420297, 71⟩, ⟨50, false, 2840911337368119, 68⟩, ⟨67, true, 7812506177762327, 70⟩,
    ⟨69, false, 2840911337368119, 68⟩, ⟨71, true, 2840911337368119, 68⟩, ⟨92, false, 7634949219176819, 68⟩,
    ⟨94, true, 2840911337368119, 67⟩, ⟨96, false, 2840911337368119, 68⟩, ⟨121, true, 2019710403910147, 65⟩,
    ⟨123, false, 2130683503026089, 66⟩, ⟨125, true, 2840911337368119, 68⟩],
  [⟨0, false, 1328552404820425, 64⟩, ⟨3, true, 670602642433167, 64⟩, ⟨5, true, 5263598099098065, 67⟩,
    ⟨10, false, 6883166744974393, 69⟩, ⟨12, false, 7288058906443475, 68⟩, ⟨14, false, 6478274583505311, 69⟩,
    ⟨21, false, 4858705937628983, 71⟩, ⟨23, true, 8097843229381639, 69⟩, ⟨25, true, 6478274583505311, 69⟩,
    ⟨36, true, 5668490260567147, 70⟩, ⟨38, false, 6478274583505311, 71⟩, ⟨40, false, 6478274583505311, 69⟩,
    ⟨55, true, 8097843229381639, 71⟩, ⟨57, false, 4858705937628983, 69⟩, ⟨59, true, 6478274583505311, 69⟩,
    ⟨78, false, 1670180166059963, 66⟩, ⟨80, true, 5668490260567147, 68⟩, ⟨82, false, 6478274583505311, 69⟩,
    ⟨105, true, 7794174108279827, 67⟩, ⟨107, false, 4453813776159901, 67⟩, ⟨109, true, 6478274583505311, 69⟩],
  [⟨2, true, 1840896212533433, 65⟩, ⟨7, false, 5259703464381237, 67⟩, ⟨9, false, 8415525543009979, 69⟩,
    ⟨16, true, 6311644157257485, 68⟩, ⟨18, true, 8415525543009979, 69⟩, ⟨29, false, 8415525543009979, 70⟩,
    ⟨31, false, 8415525543009979, 69⟩, ⟨46, false, 8415525543009979, 70⟩, ⟨48, true, 8415525543009979, 69⟩,
    ⟨67, true, 6311644157257485, 68⟩, ⟨69, false, 8415525543009979, 69⟩, ⟨92, false, 5259703464381237, 67⟩,
    ⟨94, true, 8415525543009979, 69⟩, ⟨121, true, 1840896212533433, 65⟩, ⟨123, false, 8415525543009979, 69⟩],
  [⟨0, true, 3012873657318561, 65⟩, ⟨3, false, 8837762728134445, 67⟩, ⟨5, false, 6427463802279597, 68⟩,
    ⟨10, true, 5624030826994647, 67⟩, ⟨12, true, 6427463802279597, 68⟩, ⟨21, false, 4820597851709697, 68⟩,
    ⟨23, false, 6427463802279597, 68⟩, ⟨36, false, 6427463802279597, 70⟩, ⟨38, true, 6427463802279597, 68⟩,
    ⟨55, true, 1004291219106187, 65⟩, ⟨57, false, 6427463802279597, 68⟩, ⟨78, false, 3615448388782273, 66⟩,
    ⟨80, true, 6427463802279597, 68⟩, ⟨105, true, 1305578584838043, 64⟩, ⟨107, false, 6427463802279597, 68⟩],
  [⟨2, false, 6118763245539341, 67⟩, ⟨7, true, 6118763245539341, 67⟩, ⟨16, false, 6118763245539341, 67⟩,
    ⟨29, true, 6118763245539341, 67⟩, ⟨46, false, 6118763245539341, 67⟩, ⟨67, true, 6118763245539341, 67⟩,
    ⟨92, false, 6118763245539341, 67⟩, ⟨121, true, 6118763245539341, 67⟩],
  [⟨0, false, 4189230817019273, 65⟩, ⟨3, true, 4189230817019273, 65⟩, ⟨10, false, 4189230817019273, 65⟩,
    ⟨21, true, 4189230817019273, 65⟩, ⟨36, false, 4189230817019273, 65⟩, ⟨55, true, 4189230817019273, 65⟩,
    ⟨78, false, 4189230817019273, 65⟩, ⟨105, true, 4189230817019273, 65⟩]]

/-- The array `t2s15`: so3/_tensor_conversion_lut.npz. -/
def shippedT2s15 : List (List ShippedEntry) := [
  [⟨16, true, 3202244703292991, 50⟩, ⟨18, true, 2750484634668307, 46⟩, ⟨20, false, 5135407767828169, 45⟩,
    ⟨22, false, 4984499585083955, 43⟩, ⟨24, true, 2850710831180375, 40⟩, ⟨26, false, 892248944480483, 38⟩,
    ⟨28, true, 6564523445296267, 42⟩, ⟨30, false, 6030559323094307, 45⟩],
  [⟨0, false, 99198105135589, 38⟩, ⟨2, true, 5408181990154351, 41⟩, ⟨4, false, 4867988724538107, 40⟩,
    ⟨6, true, 3195772276056627, 40⟩, ⟨8, false, 1841181879883399, 42⟩, ⟨10, false, 416594762202483, 41⟩,
    ⟨12, true, 4883565174710057, 47⟩, ⟨14, true, 3202244703292991, 50⟩],
  [⟨15, true, 4677177756386691, 51⟩, ⟨17, true, 6109724281127351, 48⟩, ⟨19, false, 8017514190393353, 46⟩,
    ⟨21, false, 863397890974711, 41⟩, ⟨23, true, 5645952956931241, 41⟩, ⟨25, false, 4767559972330891, 40⟩,
    ⟨27, true, 6387444713643651, 41⟩, ⟨29, false, 2926385016795767, 42⟩],
  [⟨16, false, 3766574712479871, 48⟩, ⟨18, true, 8355198034659383, 47⟩, ⟨20, true, 1258918705825671, 41⟩,
    ⟨22, false, 153742723747651, 36⟩, ⟨24, true, 5101167532374471, 42⟩, ⟨26, true, 3159713847223391, 40⟩,
    ⟨28, false, 6895572593984299, 41⟩, ⟨30, true, 5904080193134363, 43⟩],
  [⟨1, false, 1430515178507531, 40⟩, ⟨3, true, 5057481993862487, 40⟩, ⟨5, false, 6392142153227063, 40⟩,
    ⟨7, true, 3091963092090391, 40⟩, ⟨9, false, 7504218402276117, 45⟩, ⟨11, false, 4659388325771487, 45⟩,
    ⟨13, true, 2705449804224693, 48⟩],
  [⟨16, true, 2966013536656623, 48⟩, ⟨18, false, 6928083651997999, 46⟩, ⟨20, false, 7503645762691283, 44⟩,
    ⟨22, true, 6165892056195821, 41⟩, ⟨24, false, 8252005428547985, 41⟩, ⟨26, true, 3274255445588327, 43⟩,
    ⟨28, true, 7226621742672331, 42⟩, ⟨30, false, 2198220181180393, 42⟩],
  [⟨0, true, 4404976936466613, 42⟩, ⟨2, false, 4128063801431507, 40⟩, ⟨4, true, 2239821450551143, 40⟩,
    ⟨6, true, 3006574197429445, 40⟩, ⟨8, false, 5951330910077357, 41⟩, ⟨10, true, 539140452683681, 40⟩,
    ⟨12, true, 5630016846492165, 46⟩, ⟨14, false, 3766574712479871, 48⟩],
  [⟨15, false, 2750717246071681, 48⟩, ⟨17, true, 2885147577199027, 46⟩, ⟨19, true, 3187550083031669, 43⟩,
    ⟨21, false, 8560654248093207, 42⟩, ⟨23, true, 953035476165399, 39⟩, ⟨25, true, 6580493280560633, 41⟩,
    ⟨27, false, 1468666943854553, 38⟩, ⟨29, true, 2473840209357639, 40⟩],
  [⟨0, false, 2817807254297189, 42⟩, ⟨2, true, 5695891225417327, 42⟩, ⟨4, true, 657041818496741, 38⟩,
    ⟨6, false, 775293309185759, 37⟩, ⟨8, true, 429495115626191, 37⟩, ⟨10, false, 661686143164879, 41⟩,
    ⟨12, false, 8071799433847193, 46⟩, ⟨14, true, 2966013536656623, 48⟩],
  [⟨15, true, 4332140053046689, 49⟩, ⟨17, false, 4412578647480865, 46⟩, ⟨19, false, 8741443236929999, 45⟩,
    ⟨21, true, 5143725015021315, 41⟩, ⟨23, false, 4729047430796419, 40⟩, ⟨25, true, 2954626664101149, 41⟩,
    ⟨27, true, 1340472709298193, 39⟩, ⟨29, false, 1742243955158697, 40⟩],
  [⟨16, false, 179634116296405, 44⟩, ⟨18, false, 4825999833920081, 44⟩, ⟨20, true, 1055794388669443, 40⟩,
    ⟨22, true, 4260491990310903, 42⟩, ⟨24, false, 2277732790287683, 39⟩, ⟨26, true, 1390270405084519, 41⟩,
    ⟨28, true, 3740115699456607, 40⟩, ⟨30, false, 715015688630435, 39⟩],
  [⟨1, true, 7067760732625389, 41⟩, ⟨3, false, 6822391322075607, 40⟩, ⟨5, true, 7466916793424165, 42⟩,
    ⟨7, true, 7683059804588245, 41⟩, ⟨9, false, 5018884387036305, 41⟩, ⟨11, true, 7765647209619145, 45⟩,
    ⟨13, true, 3111267274858397, 46⟩],
  [⟨16, true, 6640720573222351, 48⟩, ⟨18, true, 7563200159175317, 45⟩, ⟨20, false, 3370507483164557, 41⟩,
    ⟨22, true, 2789521164769381, 41⟩, ⟨24, true, 6560347394963497, 41⟩, ⟨26, false, 7709698099531301, 41⟩,
    ⟨28, false, 1169317609857829, 42⟩, ⟨30, true, 5536170824952597, 43⟩],
  [⟨1, false, 4206730375610327, 41⟩, ⟨3, true, 7059637312852477, 42⟩, ⟨5, true, 2262706477435511, 39⟩,
    ⟨7, false, 3466746497192257, 39⟩, ⟨9, true, 2743949018589281, 40⟩, ⟨11, false, 1553129441923829, 44⟩,
    ⟨13, false, 7575259451829141, 47⟩],
  [⟨16, false, 4803367054939487, 47⟩, ⟨18, false, 8198316666352635, 46⟩, ⟨20, true, 8616926407001935, 42⟩,
    ⟨22, false, 4477706610482601, 40⟩, ⟨24, true, 3383316067168975, 42⟩, ⟨26, true, 6891134238134219, 41⟩,
    ⟨28, false, 3028652066407251, 41⟩, ⟨30, false, 1139730462591811, 43⟩],
  [⟨0, false, 7072107628784061, 42⟩, ⟨2, true, 3309339991688687, 40⟩, ⟨4, true, 2724040978262993, 40⟩,
    ⟨6, false, 1222144211385621, 38⟩, ⟨8, false, 2468347956496569, 47⟩, ⟨10, true, 5604525440535429, 42⟩,
    ⟨12, false, 1137231773683291, 42⟩, ⟨14, false, 179634116296405, 44⟩],
  [⟨15, false, 8395917447940043, 50⟩, ⟨17, false, 5515723309351081, 45⟩, ⟨19, true, 6653360393325861, 43⟩,
    ⟨21, true, 3746890210514457, 43⟩, ⟨23, false, 4531629234935565, 40⟩, ⟨25, true, 3816865392764227, 41⟩,
    ⟨27, true, 5579342268113883, 40⟩, ⟨29, false, 4407403467308087, 40⟩],
  [⟨0, true, 333391336539681, 39⟩, ⟨2, true, 6549790477942561, 43⟩, ⟨4, false, 620482803601767, 37⟩,
    ⟨6, true, 1882002648113039, 40⟩, ⟨8, true, 374368677931101, 37⟩, ⟨10, false, 7761087251270153, 42⟩,
    ⟨12, true, 6282845766220245, 45⟩, ⟨14, true, 6640720573222351, 48⟩],
  [⟨15, true, 1212424152014173, 46⟩, ⟨17, true, 8146299041503135, 46⟩, ⟨19, false, 4920455238178765, 42⟩,
    ⟨21, true, 3343604571417989, 41⟩, ⟨23, true, 2625558282604767, 40⟩, ⟨25, false, 2599339668331215, 39⟩,
    ⟨27, true, 2362604058434629, 43⟩, ⟨29, true, 7734253031801793, 42⟩],
  [⟨0, true, 2410824991675849, 46⟩, ⟨2, false, 8970786464388607, 42⟩, ⟨4, true, 583923788706793, 38⟩,
    ⟨6, true, 4320343825373033, 40⟩, ⟨8, false, 200965948389323, 35⟩, ⟨10, true, 1135557442199989, 39⟩,
    ⟨12, false, 8987784197186593, 47⟩, ⟨14, false, 4803367054939487, 47⟩],
  [⟨15, false, 1753941658645009, 46⟩, ⟨17, false, 1866860197011135, 45⟩, ⟨19, true, 6013135642795015, 42⟩,
    ⟨21, false, 1060916198304913, 38⟩, ⟨23, true, 4206978296383303, 41⟩, ⟨25, true, 7442732009223711, 41⟩,
    ⟨27, false, 5952541851801429, 41⟩, ⟨29, false, 6122217689336037, 45⟩],
  [⟨16, true, 8707743281290573, 47⟩, ⟨18, false, 8849880413755661, 45⟩, ⟨20, false, 4358143259044971, 42⟩,
    ⟨22, true, 287964929072675, 37⟩, ⟨24, true, 3198111209295421, 40⟩, ⟨26, false, 588286650650449, 37⟩,
    ⟨28, false, 8313147672838245, 42⟩, ⟨30, true, 7848388032402259, 42⟩],
  [⟨1, false, 2651520250494271, 39⟩, ⟨3, true, 4687177405083775, 40⟩, ⟨5, true, 4561576595162573, 40⟩,
    ⟨7, false, 585599070471665, 37⟩, ⟨9, false, 6382092286047913, 43⟩, ⟨11, true, 2135552982645265, 41⟩,
    ⟨13, false, 5951989569294325, 46⟩],
  [⟨16, false, 7270670350919333, 47⟩, ⟨18, true, 1156367505099739, 41⟩, ⟨20, true, 1079725634937591, 45⟩,
    ⟨22, false, 6737684860318251, 41⟩, ⟨24, true, 5429417485119781, 42⟩, ⟨26, true, 8022316005322665, 41⟩,
    ⟨28, false, 3323657562494091, 41⟩, ⟨30, false, 8513050093435115, 44⟩],
  [⟨1, true, 1769160134675847, 40⟩, ⟨3, true, 266901739623979, 37⟩, ⟨5, false, 3214152896759307, 39⟩,
    ⟨7, true, 6746101291833581, 43⟩, ⟨9, true, 6614407458548283, 41⟩, ⟨11, false, 5241811866492923, 42⟩,
    ⟨13, true, 355090286804491, 43⟩],
  [⟨16, true, 3950310064308157, 47⟩, ⟨18, false, 6516270060192785, 43⟩, ⟨20, true, 6606049261961915, 42⟩,
    ⟨22, true, 7896327391097741, 42⟩, ⟨24, false, 2318764034380847, 39⟩, ⟨26, false, 1250471623165455, 43⟩,
    ⟨28, true, 3908316367423005, 41⟩, ⟨30, false, 2559291556470079, 44⟩],
  [⟨1, true, 5347280850069065, 44⟩, ⟨3, false, 3900123245204951, 40⟩, ⟨5, true, 7611571354590371, 42⟩,
    ⟨7, true, 1522557583226329, 38⟩, ⟨9, false, 6051152747863423, 40⟩, ⟨11, true, 703761778371735, 39⟩,
    ⟨13, true, 7575259451829141, 49⟩],
  [⟨16, true, 6824455925050637, 50⟩, ⟨18, true, 7541059643486865, 43⟩, ⟨20, false, 7611487834481925, 41⟩,
    ⟨22, true, 1251812381354083, 39⟩, ⟨24, true, 1895849525984725, 39⟩, ⟨26, false, 6578516332342855, 41⟩,
    ⟨28, false, 7037314408126033, 44⟩, ⟨30, true, 4838752481653701, 44⟩],
  [⟨0, true, 4196923473049539, 41⟩, ⟨2, false, 765824987785015, 40⟩, ⟨4, false, 5711050414225729, 40⟩,
    ⟨6, true, 184847384358591, 37⟩, ⟨8, true, 3094310713480947, 40⟩, ⟨10, false, 5613566651394281, 43⟩,
    ⟨12, false, 6103823882225045, 44⟩, ⟨14, true, 8707743281290573, 47⟩],
  [⟨15, true, 6359236560169199, 47⟩, ⟨17, false, 1548645390702419, 43⟩, ⟨19, false, 1249343174843321, 41⟩,
    ⟨21, true, 4353651785700507, 41⟩, ⟨23, true, 4563091679459799, 41⟩, ⟨25, false, 3074686958114547, 39⟩,
    ⟨27, false, 2268909156540737, 40⟩, ⟨29, true, 5646316398439503, 40⟩],
  [⟨0, false, 5286957269260067, 44⟩, ⟨2, false, 317939375487959, 37⟩, ⟨4, true, 186688089747671, 36⟩,
    ⟨6, true, 852449442668439, 38⟩, ⟨8, false, 6150053490141635, 41⟩, ⟨10, false, 5595484229676577, 43⟩,
    ⟨12, true, 41612308503743, 36⟩, ⟨14, false, 7270670350919333, 47⟩],
  [⟨15, false, 2654873439588347, 46⟩, ⟨17, true, 2927576218040189, 43⟩, ⟨19, false, 3311975387905155, 44⟩,
    ⟨21, false, 5290374338329121, 41⟩, ⟨23, true, 4500166790411331, 41⟩, ⟨25, true, 8481882439693961, 41⟩,
    ⟨27, false, 1655216555786573, 39⟩, ⟨29, false, 154864116391427, 37⟩],
  [⟨0, false, 2690782750004863, 43⟩, ⟨2, true, 6899164776643407, 42⟩, ⟨4, true, 7907411971405599, 42⟩,
    ⟨6, false, 5291800418786795, 40⟩, ⟨8, true, 2562474291904305, 45⟩, ⟨10, true, 5279414683054221, 41⟩,
    ⟨12, false, 6897086930034165, 43⟩, ⟨14, true, 3950310064308157, 47⟩],
  [⟨15, true, 721224643787087, 45⟩, ⟨17, false, 3945863598228081, 43⟩, ⟨19, true, 2874224542577527, 41⟩,
    ⟨21, true, 486692441727783, 39⟩, ⟨23, false, 19045475303947, 32⟩, ⟨25, true, 3830952467261799, 42⟩,
    ⟨27, true, 3015107604268817, 40⟩, ⟨29, false, 5557202614552257, 43⟩],
  [⟨0, true, 4778859252090763, 44⟩, ⟨2, true, 129476355484075, 38⟩, ⟨4, false, 8625096295357143, 41⟩,
    ⟨6, true, 3885826373655049, 42⟩, ⟨8, true, 3175416513418163, 39⟩, ⟨10, false, 306926389120443, 36⟩,
    ⟨12, true, 7458823442358327, 43⟩, ⟨14, true, 6824455925050637, 50⟩],
  [⟨15, true, 4983877937133359, 50⟩, ⟨17, true, 4412578647480865, 43⟩, ⟨19, false, 2940396181987517, 40⟩,
    ⟨21, true, 1635139954882043, 39⟩, ⟨23, true, 2772152529618781, 40⟩, ⟨25, false, 2339552060713653, 39⟩,
    ⟨27, false, 2485547415558567, 46⟩, ⟨29, true, 3543878518443133, 42⟩],
  [⟨16, true, 8707743281290573, 47⟩, ⟨18, true, 6103823882225045, 44⟩, ⟨20, false, 5613566651394281, 43⟩,
    ⟨22, false, 3094310713480947, 40⟩, ⟨24, true, 184847384358591, 37⟩, ⟨26, true, 5711050414225729, 40⟩,
    ⟨28, false, 765824987785015, 40⟩, ⟨30, false, 4196923473049539, 41⟩],
  [⟨1, true, 2991720283495403, 39⟩, ⟨5, false, 3697294756420531, 39⟩, ⟨9, true, 5908695330764139, 41⟩,
    ⟨13, false, 8386894393096549, 45⟩],
  [⟨16, false, 8707743281290573, 46⟩, ⟨18, false, 839441837673607, 43⟩, ⟨20, true, 223903955773191, 37⟩,
    ⟨22, true, 6324730247196375, 43⟩, ⟨24, false, 4676890284164149, 40⟩, ⟨26, false, 8038057672177097, 43⟩,
    ⟨28, true, 5688223811989153, 41⟩, ⟨30, true, 2181835654787277, 44⟩],
  [⟨1, false, 2721600264009057, 42⟩, ⟨3, false, 4687177405083775, 40⟩, ⟨5, true, 5666025835356977, 41⟩,
    ⟨7, true, 585599070471665, 37⟩, ⟨9, false, 4313172259252161, 41⟩, ⟨11, false, 2135552982645265, 41⟩,
    ⟨13, true, 355090286804491, 40⟩],
  [⟨16, true, 6171539228375119, 45⟩, ⟨18, false, 3786028182725349, 43⟩, ⟨20, false, 3649946144554655, 41⟩,
    ⟨22, true, 5156502298519157, 41⟩, ⟨24, true, 829883978221051, 38⟩, ⟨26, false, 3006400793639195, 40⟩,
    ⟨28, false, 1182283124747531, 40⟩, ⟨30, true, 3165607219323919, 43⟩],
  [⟨1, false, 8710080549388663, 43⟩, ⟨3, true, 5103926976183885, 41⟩, ⟨5, true, 1797646437920063, 39⟩,
    ⟨7, false, 2764027612626259, 39⟩, ⟨9, false, 4602470398592245, 42⟩, ⟨11, true, 2378229457945863, 40⟩,
    ⟨13, false, 3195812581240419, 43⟩],
  [⟨16, false, 7159116744452159, 45⟩, ⟨18, true, 5151149121459067, 42⟩, ⟨20, true, 5550744217179163, 45⟩,
    ⟨22, false, 2276166498517007, 39⟩, ⟨24, true, 5271968623509959, 42⟩, ⟨26, true, 3162709746534877, 40⟩,
    ⟨28, false, 6175000471711773, 43⟩, ⟨30, false, 3771922882177759, 44⟩],
  [⟨1, true, 3018220062177065, 42⟩, ⟨3, true, 2696319514226017, 41⟩, ⟨5, false, 5498185714487719, 40⟩,
    ⟨7, false, 8994801722444775, 44⟩, ⟨9, true, 1800442586877871, 38⟩, ⟨11, false, 3785753014689333, 40⟩,
    ⟨13, true, 6154898304611177, 44⟩],
  [⟨16, true, 3472926248397163, 44⟩, ⟨18, false, 8921678943202499, 42⟩, ⟨20, true, 7264566320908227, 41⟩,
    ⟨22, true, 256088529290731, 37⟩, ⟨24, false, 1277422801961735, 38⟩, ⟨26, true, 8099098856739243, 46⟩,
    ⟨28, true, 4846828837887395, 42⟩, ⟨30, false, 8534636795807537, 47⟩],
  [⟨0, false, 7848388032402259, 42⟩, ⟨2, false, 8313147672838245, 42⟩, ⟨4, true, 588286650650449, 37⟩,
    ⟨6, true, 3198111209295421, 40⟩, ⟨8, false, 287964929072675, 37⟩, ⟨10, false, 4358143259044971, 42⟩,
    ⟨12, true, 8849880413755661, 45⟩, ⟨14, true, 8707743281290573, 47⟩],
  [⟨15, true, 6359236560169199, 47⟩, ⟨17, true, 1548645390702419, 43⟩, ⟨19, false, 1249343174843321, 41⟩,
    ⟨21, false, 4353651785700507, 41⟩, ⟨23, true, 4563091679459799, 41⟩, ⟨25, true, 3074686958114547, 39⟩,
    ⟨27, false, 2268909156540737, 40⟩, ⟨29, false, 5646316398439503, 40⟩],
  [⟨0, false, 2181835654787277, 44⟩, ⟨2, true, 5688223811989153, 41⟩, ⟨4, true, 8038057672177097, 43⟩,
    ⟨6, false, 4676890284164149, 40⟩, ⟨8, false, 6324730247196375, 43⟩, ⟨10, true, 223903955773191, 37⟩,
    ⟨12, true, 839441837673607, 43⟩, ⟨14, false, 8707743281290573, 46⟩],
  [⟨15, false, 6359236560169199, 46⟩, ⟨19, true, 1249343174843321, 40⟩, ⟨23, false, 4563091679459799, 40⟩,
    ⟨27, true, 2268909156540737, 39⟩],
  [⟨0, true, 466799557752959, 40⟩, ⟨2, false, 601193804181809, 41⟩, ⟨4, false, 7983533289969747, 41⟩,
    ⟨6, true, 5068370053961573, 42⟩, ⟨8, true, 966404506492591, 38⟩, ⟨10, false, 4367184469903823, 42⟩,
    ⟨12, false, 6165817326152711, 43⟩, ⟨14, true, 6171539228375119, 45⟩],
  [⟨15, true, 4507054999878773, 45⟩, ⟨17, false, 2927576218040189, 43⟩, ⟨19, false, 4169378852396995, 42⟩,
    ⟨21, true, 5290374338329121, 41⟩, ⟨23, true, 4626016568508267, 41⟩, ⟨25, false, 8481882439693961, 41⟩,
    ⟨27, false, 4909540806033313, 42⟩, ⟨29, true, 154864116391427, 37⟩],
  [⟨0, false, 8348909696150475, 46⟩, ⟨2, false, 5696777168279789, 42⟩, ⟨4, true, 4029827304266947, 41⟩,
    ⟨6, true, 2012353952648201, 39⟩, ⟨8, false, 7891390695184747, 41⟩, ⟨10, false, 3095822448102309, 41⟩,
    ⟨12, true, 3265726064046719, 41⟩, ⟨14, false, 7159116744452159, 45⟩],
  [⟨15, false, 1307069910916465, 43⟩, ⟨17, true, 3436719908134135, 42⟩, ⟨19, false, 6316280931032235, 44⟩,
    ⟨21, false, 7237144105240253, 41⟩, ⟨23, true, 2562633393556299, 40⟩, ⟨25, true, 6566406206063061, 41⟩,
    ⟨27, false, 1787722402760489, 40⟩, ⟨29, false, 8504103192381, 34⟩],
  [⟨0, false, 5383263656106289, 45⟩, ⟨2, true, 7250310961069179, 43⟩, ⟨4, true, 1148817247772549, 39⟩,
    ⟨6, false, 1249041124677541, 38⟩, ⟨8, false, 4810275358487905, 41⟩, ⟨10, true, 6458733449978243, 40⟩,
    ⟨12, false, 5130431924636301, 41⟩, ⟨14, true, 3472926248397163, 44⟩],
  [⟨15, true, 5072533458130443, 45⟩, ⟨17, false, 705376153984321, 39⟩, ⟨19, true, 416895467522129, 37⟩,
    ⟨21, true, 5572674285696649, 44⟩, ⟨23, false, 666848240396885, 37⟩, ⟨25, true, 1395901018395775, 40⟩,
    ⟨27, true, 3653118162257183, 41⟩, ⟨29, false, 1366828101193597, 42⟩],
  [⟨16, false, 179634116296405, 44⟩, ⟨18, true, 1137231773683291, 42⟩, ⟨20, true, 5604525440535429, 42⟩,
    ⟨22, true, 2468347956496569, 47⟩, ⟨24, false, 1222144211385621, 38⟩, ⟨26, false, 2724040978262993, 40⟩,
    ⟨28, true, 3309339991688687, 40⟩, ⟨30, true, 7072107628784061, 42⟩],
  [⟨1, false, 2651520250494271, 39⟩, ⟨3, false, 4687177405083775, 40⟩, ⟨5, true, 4561576595162573, 40⟩,
    ⟨7, true, 585599070471665, 37⟩, ⟨9, false, 6382092286047913, 43⟩, ⟨11, false, 2135552982645265, 41⟩,
    ⟨13, false, 5951989569294325, 46⟩],
  [⟨16, false, 7270670350919333, 47⟩, ⟨18, false, 41612308503743, 36⟩, ⟨20, false, 5595484229676577, 43⟩,
    ⟨22, true, 6150053490141635, 41⟩, ⟨24, true, 852449442668439, 38⟩, ⟨26, false, 186688089747671, 36⟩,
    ⟨28, false, 317939375487959, 37⟩, ⟨30, true, 5286957269260067, 44⟩],
  [⟨1, false, 2721600264009057, 42⟩, ⟨3, true, 4687177405083775, 40⟩, ⟨5, true, 5666025835356977, 41⟩,
    ⟨7, false, 585599070471665, 37⟩, ⟨9, false, 4313172259252161, 41⟩, ⟨11, true, 2135552982645265, 41⟩,
    ⟨13, true, 355090286804491, 40⟩],
  [⟨16, true, 6171539228375119, 45⟩, ⟨18, true, 6165817326152711, 43⟩, ⟨20, false, 4367184469903823, 42⟩,
    ⟨22, false, 966404506492591, 38⟩, ⟨24, true, 5068370053961573, 42⟩, ⟨26, true, 7983533289969747, 41⟩,
    ⟨28, false, 601193804181809, 41⟩, ⟨30, false, 466799557752959, 40⟩],
  [⟨1, true, 2721600264009057, 41⟩, ⟨5, false, 5666025835356977, 40⟩, ⟨9, true, 4313172259252161, 40⟩,
    ⟨13, false, 355090286804491, 39⟩],
  [⟨16, false, 6171539228375119, 44⟩, ⟨18, false, 1189894571713681, 42⟩, ⟨20, true, 5833538379506567, 41⟩,
    ⟨22, true, 2574733753421571, 41⟩, ⟨24, false, 4586628426374597, 40⟩, ⟨26, false, 7882926810765425, 43⟩,
    ⟨28, true, 2965760053676871, 41⟩, ⟨30, true, 568789242699753, 43⟩],
  [⟨1, false, 8705282026590259, 45⟩, ⟨3, false, 5103926976183885, 41⟩, ⟨5, true, 4141465919033701, 41⟩,
    ⟨7, true, 2764027612626259, 39⟩, ⟨9, false, 6325109319208199, 41⟩, ⟨11, false, 2378229457945863, 40⟩,
    ⟨13, true, 4438628585056137, 42⟩],
  [⟨16, true, 4875548800300599, 43⟩, ⟨18, false, 1980627274872693, 41⟩, ⟨20, false, 772557486635033, 38⟩,
    ⟨22, true, 6529932240646457, 41⟩, ⟨24, true, 6537272540994215, 41⟩, ⟨26, false, 2177343895189199, 40⟩,
    ⟨28, false, 5688039742995711, 43⟩, ⟨30, true, 2634344396778253, 44⟩],
  [⟨1, false, 7720239235413131, 44⟩, ⟨3, true, 601901865489467, 39⟩, ⟨5, true, 6854905509941737, 41⟩,
    ⟨7, false, 4965880117599719, 40⟩, ⟨9, false, 8078431375814769, 41⟩, ⟨11, true, 1540995618158799, 38⟩,
    ⟨13, false, 5977353161208931, 42⟩],
  [⟨16, false, 6612011924499181, 43⟩, ⟨18, true, 6441466746473943, 41⟩, ⟨20, false, 4336425711311851, 43⟩,
    ⟨22, false, 1328418588662269, 38⟩, ⟨24, true, 7364219749399329, 42⟩, ⟨26, true, 8203181902210593, 42⟩,
    ⟨28, false, 4005617932779079, 43⟩, ⟨30, false, 1567514797302311, 44⟩],
  [⟨0, true, 715015688630435, 39⟩, ⟨2, true, 3740115699456607, 40⟩, ⟨4, false, 1390270405084519, 41⟩,
    ⟨6, false, 2277732790287683, 39⟩, ⟨8, false, 4260491990310903, 42⟩, ⟨10, true, 1055794388669443, 40⟩,
    ⟨12, true, 4825999833920081, 44⟩, ⟨14, false, 179634116296405, 44⟩],
  [⟨15, false, 8395917447940043, 50⟩, ⟨17, true, 5515723309351081, 45⟩, ⟨19, true, 6653360393325861, 43⟩,
    ⟨21, false, 3746890210514457, 43⟩, ⟨23, false, 4531629234935565, 40⟩, ⟨25, false, 3816865392764227, 41⟩,
    ⟨27, true, 5579342268113883, 40⟩, ⟨29, true, 4407403467308087, 40⟩],
  [⟨0, true, 8513050093435115, 44⟩, ⟨2, false, 3323657562494091, 41⟩, ⟨4, false, 8022316005322665, 41⟩,
    ⟨6, true, 5429417485119781, 42⟩, ⟨8, true, 6737684860318251, 41⟩, ⟨10, true, 1079725634937591, 45⟩,
    ⟨12, false, 1156367505099739, 41⟩, ⟨14, false, 7270670350919333, 47⟩],
  [⟨15, false, 2654873439588347, 46⟩, ⟨17, false, 2927576218040189, 43⟩, ⟨19, false, 3311975387905155, 44⟩,
    ⟨21, true, 5290374338329121, 41⟩, ⟨23, true, 4500166790411331, 41⟩, ⟨25, false, 8481882439693961, 41⟩,
    ⟨27, false, 1655216555786573, 39⟩, ⟨29, true, 154864116391427, 37⟩],
  [⟨0, false, 3165607219323919, 43⟩, ⟨2, false, 1182283124747531, 40⟩, ⟨4, true, 3006400793639195, 40⟩,
    ⟨6, true, 829883978221051, 38⟩, ⟨8, false, 5156502298519157, 41⟩, ⟨10, false, 3649946144554655, 41⟩,
    ⟨12, true, 3786028182725349, 43⟩, ⟨14, true, 6171539228375119, 45⟩],
  [⟨15, true, 4507054999878773, 45⟩, ⟨17, true, 2927576218040189, 43⟩, ⟨19, false, 4169378852396995, 42⟩,
    ⟨21, false, 5290374338329121, 41⟩, ⟨23, true, 4626016568508267, 41⟩, ⟨25, true, 8481882439693961, 41⟩,
    ⟨27, false, 4909540806033313, 42⟩, ⟨29, false, 154864116391427, 37⟩],
  [⟨0, false, 568789242699753, 43⟩, ⟨2, true, 2965760053676871, 41⟩, ⟨4, true, 7882926810765425, 43⟩,
    ⟨6, false, 4586628426374597, 40⟩, ⟨8, false, 2574733753421571, 41⟩, ⟨10, true, 5833538379506567, 41⟩,
    ⟨12, true, 1189894571713681, 42⟩, ⟨14, false, 6171539228375119, 44⟩],
  [⟨15, false, 4507054999878773, 44⟩, ⟨19, true, 4169378852396995, 41⟩, ⟨23, false, 4626016568508267, 40⟩,
    ⟨27, true, 4909540806033313, 41⟩],
  [⟨0, true, 3224805909437125, 44⟩, ⟨2, false, 3755887025183241, 46⟩, ⟨4, false, 6000559006958303, 41⟩,
    ⟨6, true, 2247682084312781, 42⟩, ⟨8, true, 5233062224303159, 40⟩, ⟨10, false, 1368857965702129, 40⟩,
    ⟨12, false, 7721346699807119, 42⟩, ⟨14, true, 4875548800300599, 43⟩],
  [⟨15, true, 7121194821711703, 44⟩, ⟨17, false, 3436719908134135, 42⟩, ⟨19, false, 6759687472035931, 42⟩,
    ⟨21, true, 7237144105240253, 41⟩, ⟨23, true, 4126766349903937, 41⟩, ⟨25, false, 6566406206063061, 41⟩,
    ⟨27, false, 5336384002049343, 43⟩, ⟨29, true, 8504103192381, 34⟩],
  [⟨0, false, 8530785302143681, 48⟩, ⟨2, false, 3390412541460637, 42⟩, ⟨4, true, 1405290015868107, 41⟩,
    ⟨6, true, 4434243977631969, 40⟩, ⟨8, false, 5655849090118413, 41⟩, ⟨10, false, 2544937742138057, 39⟩,
    ⟨12, true, 8991105274539861, 41⟩, ⟨14, false, 6612011924499181, 43⟩],
  [⟨15, false, 2414365387694231, 42⟩, ⟨17, true, 4539864570004351, 41⟩, ⟨19, false, 1645241872168049, 40⟩,
    ⟨21, false, 3966864195476167, 40⟩, ⟨23, true, 3271402748223111, 40⟩, ⟨25, true, 3774604169271511, 41⟩,
    ⟨27, false, 2319022161744847, 41⟩, ⟨29, false, 6481778528447511, 45⟩],
  [⟨16, false, 3766574712479871, 48⟩, ⟨18, false, 5630016846492165, 46⟩, ⟨20, true, 539140452683681, 40⟩,
    ⟨22, true, 5951330910077357, 41⟩, ⟨24, true, 3006574197429445, 40⟩, ⟨26, false, 2239821450551143, 40⟩,
    ⟨28, false, 4128063801431507, 40⟩, ⟨30, false, 4404976936466613, 42⟩],
  [⟨1, true, 7067760732625389, 41⟩, ⟨3, true, 6822391322075607, 40⟩, ⟨5, true, 7466916793424165, 42⟩,
    ⟨7, false, 7683059804588245, 41⟩, ⟨9, false, 5018884387036305, 41⟩, ⟨11, false, 7765647209619145, 45⟩,
    ⟨13, true, 3111267274858397, 46⟩],
  [⟨16, true, 6640720573222351, 48⟩, ⟨18, false, 6282845766220245, 45⟩, ⟨20, false, 7761087251270153, 42⟩,
    ⟨22, false, 374368677931101, 37⟩, ⟨24, true, 1882002648113039, 40⟩, ⟨26, true, 620482803601767, 37⟩,
    ⟨28, true, 6549790477942561, 43⟩, ⟨30, false, 333391336539681, 39⟩],
  [⟨1, true, 1769160134675847, 40⟩, ⟨3, false, 266901739623979, 37⟩, ⟨5, false, 3214152896759307, 39⟩,
    ⟨7, false, 6746101291833581, 43⟩, ⟨9, true, 6614407458548283, 41⟩, ⟨11, true, 5241811866492923, 42⟩,
    ⟨13, true, 355090286804491, 43⟩],
  [⟨16, true, 3950310064308157, 47⟩, ⟨18, true, 6897086930034165, 43⟩, ⟨20, true, 5279414683054221, 41⟩,
    ⟨22, false, 2562474291904305, 45⟩, ⟨24, false, 5291800418786795, 40⟩, ⟨26, false, 7907411971405599, 42⟩,
    ⟨28, true, 6899164776643407, 42⟩, ⟨30, true, 2690782750004863, 43⟩],
  [⟨1, false, 8710080549388663, 43⟩, ⟨3, false, 5103926976183885, 41⟩, ⟨5, true, 1797646437920063, 39⟩,
    ⟨7, true, 2764027612626259, 39⟩, ⟨9, false, 4602470398592245, 42⟩, ⟨11, false, 2378229457945863, 40⟩,
    ⟨13, false, 3195812581240419, 43⟩],
  [⟨16, false, 7159116744452159, 45⟩, ⟨18, false, 3265726064046719, 41⟩, ⟨20, false, 3095822448102309, 41⟩,
    ⟨22, true, 7891390695184747, 41⟩, ⟨24, true, 2012353952648201, 39⟩, ⟨26, false, 4029827304266947, 41⟩,
    ⟨28, false, 5696777168279789, 42⟩, ⟨30, true, 8348909696150475, 46⟩],
  [⟨1, false, 8705282026590259, 45⟩, ⟨3, true, 5103926976183885, 41⟩, ⟨5, true, 4141465919033701, 41⟩,
    ⟨7, false, 2764027612626259, 39⟩, ⟨9, false, 6325109319208199, 41⟩, ⟨11, true, 2378229457945863, 40⟩,
    ⟨13, true, 4438628585056137, 42⟩],
  [⟨16, true, 4875548800300599, 43⟩, ⟨18, true, 7721346699807119, 42⟩, ⟨20, false, 1368857965702129, 40⟩,
    ⟨22, false, 5233062224303159, 40⟩, ⟨24, true, 2247682084312781, 42⟩, ⟨26, true, 6000559006958303, 41⟩,
    ⟨28, false, 3755887025183241, 46⟩, ⟨30, false, 3224805909437125, 44⟩],
  [⟨1, true, 8705282026590259, 44⟩, ⟨5, false, 4141465919033701, 40⟩, ⟨9, true, 6325109319208199, 40⟩,
    ⟨13, false, 4438628585056137, 41⟩],
  [⟨16, false, 4875548800300599, 42⟩, ⟨18, false, 7520184300123467, 43⟩, ⟨20, true, 4459087912242261, 40⟩,
    ⟨22, true, 1968096103979931, 40⟩, ⟨24, false, 3830556791575303, 40⟩, ⟨26, false, 6583484866319621, 43⟩,
    ⟨28, true, 96211337830369, 37⟩, ⟨30, true, 2361846050635487, 46⟩],
  [⟨1, false, 3940171164708511, 46⟩, ⟨3, false, 601901865489467, 39⟩, ⟨5, true, 714013164062833, 40⟩,
    ⟨7, true, 4965880117599719, 40⟩, ⟨9, false, 2285893631300815, 40⟩, ⟨11, false, 1540995618158799, 38⟩,
    ⟨13, true, 7427305165660603, 41⟩],
  [⟨16, true, 4090777381275095, 41⟩, ⟨18, false, 1140355167860769, 39⟩, ⟨20, false, 489629337291035, 37⟩,
    ⟨22, true, 6691156501338291, 41⟩, ⟨24, true, 3979003708450941, 41⟩, ⟨26, false, 4911439469050783, 42⟩,
    ⟨28, false, 8607630753458149, 45⟩, ⟨30, true, 7816426277147513, 47⟩],
  [⟨0, false, 5904080193134363, 43⟩, ⟨2, false, 6895572593984299, 41⟩, ⟨4, false, 3159713847223391, 40⟩,
    ⟨6, true, 5101167532374471, 42⟩, ⟨8, true, 153742723747651, 36⟩, ⟨10, true, 1258918705825671, 41⟩,
    ⟨12, false, 8355198034659383, 47⟩, ⟨14, false, 3766574712479871, 48⟩],
  [⟨15, false, 2750717246071681, 48⟩, ⟨17, false, 2885147577199027, 46⟩, ⟨19, true, 3187550083031669, 43⟩,
    ⟨21, true, 8560654248093207, 42⟩, ⟨23, true, 953035476165399, 39⟩, ⟨25, false, 6580493280560633, 41⟩,
    ⟨27, false, 1468666943854553, 38⟩, ⟨29, false, 2473840209357639, 40⟩],
  [⟨0, false, 5536170824952597, 43⟩, ⟨2, false, 1169317609857829, 42⟩, ⟨4, true, 7709698099531301, 41⟩,
    ⟨6, true, 6560347394963497, 41⟩, ⟨8, false, 2789521164769381, 41⟩, ⟨10, false, 3370507483164557, 41⟩,
    ⟨12, false, 7563200159175317, 45⟩, ⟨14, true, 6640720573222351, 48⟩],
  [⟨15, true, 1212424152014173, 46⟩, ⟨17, false, 8146299041503135, 46⟩, ⟨19, false, 4920455238178765, 42⟩,
    ⟨21, false, 3343604571417989, 41⟩, ⟨23, true, 2625558282604767, 40⟩, ⟨25, true, 2599339668331215, 39⟩,
    ⟨27, true, 2362604058434629, 43⟩, ⟨29, false, 7734253031801793, 42⟩],
  [⟨0, true, 2559291556470079, 44⟩, ⟨2, true, 3908316367423005, 41⟩, ⟨4, true, 1250471623165455, 43⟩,
    ⟨6, false, 2318764034380847, 39⟩, ⟨8, false, 7896327391097741, 42⟩, ⟨10, true, 6606049261961915, 42⟩,
    ⟨12, true, 6516270060192785, 43⟩, ⟨14, true, 3950310064308157, 47⟩],
  [⟨15, true, 721224643787087, 45⟩, ⟨17, true, 3945863598228081, 43⟩, ⟨19, true, 2874224542577527, 41⟩,
    ⟨21, false, 486692441727783, 39⟩, ⟨23, false, 19045475303947, 32⟩, ⟨25, false, 3830952467261799, 42⟩,
    ⟨27, true, 3015107604268817, 40⟩, ⟨29, true, 5557202614552257, 43⟩],
  [⟨0, true, 3771922882177759, 44⟩, ⟨2, false, 6175000471711773, 43⟩, ⟨4, false, 3162709746534877, 40⟩,
    ⟨6, true, 5271968623509959, 42⟩, ⟨8, true, 2276166498517007, 39⟩, ⟨10, true, 5550744217179163, 45⟩,
    ⟨12, false, 5151149121459067, 42⟩, ⟨14, false, 7159116744452159, 45⟩],
  [⟨15, false, 1307069910916465, 43⟩, ⟨17, false, 3436719908134135, 42⟩, ⟨19, false, 6316280931032235, 44⟩,
    ⟨21, true, 7237144105240253, 41⟩, ⟨23, true, 2562633393556299, 40⟩, ⟨25, false, 6566406206063061, 41⟩,
    ⟨27, false, 1787722402760489, 40⟩, ⟨29, true, 8504103192381, 34⟩],
  [⟨0, false, 2634344396778253, 44⟩, ⟨2, false, 5688039742995711, 43⟩, ⟨4, true, 2177343895189199, 40⟩,
    ⟨6, true, 6537272540994215, 41⟩, ⟨8, false, 6529932240646457, 41⟩, ⟨10, false, 772557486635033, 38⟩,
    ⟨12, true, 1980627274872693, 41⟩, ⟨14, true, 4875548800300599, 43⟩],
  [⟨15, true, 7121194821711703, 44⟩, ⟨17, true, 3436719908134135, 42⟩, ⟨19, false, 6759687472035931, 42⟩,
    ⟨21, false, 7237144105240253, 41⟩, ⟨23, true, 4126766349903937, 41⟩, ⟨25, true, 6566406206063061, 41⟩,
    ⟨27, false, 5336384002049343, 43⟩, ⟨29, false, 8504103192381, 34⟩],
  [⟨0, false, 2361846050635487, 46⟩, ⟨2, true, 96211337830369, 37⟩, ⟨4, true, 6583484866319621, 43⟩,
    ⟨6, false, 3830556791575303, 40⟩, ⟨8, false, 1968096103979931, 40⟩, ⟨10, true, 4459087912242261, 40⟩,
    ⟨12, true, 7520184300123467, 43⟩, ⟨14, false, 4875548800300599, 42⟩],
  [⟨15, false, 7121194821711703, 43⟩, ⟨19, true, 6759687472035931, 41⟩, ⟨23, false, 4126766349903937, 40⟩,
    ⟨27, true, 5336384002049343, 42⟩],
  [⟨0, true, 4494542376171407, 46⟩, ⟨2, true, 2493197847110631, 45⟩, ⟨4, false, 6102322464896025, 42⟩,
    ⟨6, false, 4829497488453329, 43⟩, ⟨8, true, 2398010324519569, 39⟩, ⟨10, true, 1261575144067705, 41⟩,
    ⟨12, false, 1358893918696341, 38⟩, ⟨14, true, 4090777381275095, 41⟩],
  [⟨15, true, 5974962798550083, 42⟩, ⟨17, false, 4539864570004351, 41⟩, ⟨19, false, 6938407455399665, 42⟩,
    ⟨21, true, 3966864195476167, 40⟩, ⟨23, true, 6842908813446609, 43⟩, ⟨25, false, 3774604169271511, 41⟩,
    ⟨27, false, 5586717428477187, 45⟩, ⟨29, true, 6481778528447511, 45⟩],
  [⟨16, true, 3202244703292991, 50⟩, ⟨18, false, 4883565174710057, 47⟩, ⟨20, false, 416594762202483, 41⟩,
    ⟨22, true, 1841181879883399, 42⟩, ⟨24, true, 3195772276056627, 40⟩, ⟨26, true, 4867988724538107, 40⟩,
    ⟨28, true, 5408181990154351, 41⟩, ⟨30, true, 99198105135589, 38⟩],
  [⟨1, false, 1430515178507531, 40⟩, ⟨3, false, 5057481993862487, 40⟩, ⟨5, false, 6392142153227063, 40⟩,
    ⟨7, false, 3091963092090391, 40⟩, ⟨9, false, 7504218402276117, 45⟩, ⟨11, true, 4659388325771487, 45⟩,
    ⟨13, true, 2705449804224693, 48⟩],
  [⟨16, true, 2966013536656623, 48⟩, ⟨18, true, 8071799433847193, 46⟩, ⟨20, false, 661686143164879, 41⟩,
    ⟨22, false, 429495115626191, 37⟩, ⟨24, false, 775293309185759, 37⟩, ⟨26, false, 657041818496741, 38⟩,
    ⟨28, true, 5695891225417327, 42⟩, ⟨30, true, 2817807254297189, 42⟩],
  [⟨1, false, 4206730375610327, 41⟩, ⟨3, false, 7059637312852477, 42⟩, ⟨5, true, 2262706477435511, 39⟩,
    ⟨7, true, 3466746497192257, 39⟩, ⟨9, true, 2743949018589281, 40⟩, ⟨11, true, 1553129441923829, 44⟩,
    ⟨13, false, 7575259451829141, 47⟩],
  [⟨16, false, 4803367054939487, 47⟩, ⟨18, true, 8987784197186593, 47⟩, ⟨20, true, 1135557442199989, 39⟩,
    ⟨22, true, 200965948389323, 35⟩, ⟨24, true, 4320343825373033, 40⟩, ⟨26, false, 583923788706793, 38⟩,
    ⟨28, false, 8970786464388607, 42⟩, ⟨30, false, 2410824991675849, 46⟩],
  [⟨1, true, 5347280850069065, 44⟩, ⟨3, true, 3900123245204951, 40⟩, ⟨5, true, 7611571354590371, 42⟩,
    ⟨7, false, 1522557583226329, 38⟩, ⟨9, false, 6051152747863423, 40⟩, ⟨11, false, 703761778371735, 39⟩,
    ⟨13, true, 7575259451829141, 49⟩],
  [⟨16, true, 6824455925050637, 50⟩, ⟨18, false, 7458823442358327, 43⟩, ⟨20, false, 306926389120443, 36⟩,
    ⟨22, false, 3175416513418163, 39⟩, ⟨24, true, 3885826373655049, 42⟩, ⟨26, true, 8625096295357143, 41⟩,
    ⟨28, true, 129476355484075, 38⟩, ⟨30, false, 4778859252090763, 44⟩],
  [⟨1, true, 3018220062177065, 42⟩, ⟨3, false, 2696319514226017, 41⟩, ⟨5, false, 5498185714487719, 40⟩,
    ⟨7, true, 8994801722444775, 44⟩, ⟨9, true, 1800442586877871, 38⟩, ⟨11, true, 3785753014689333, 40⟩,
    ⟨13, true, 6154898304611177, 44⟩],
  [⟨16, true, 3472926248397163, 44⟩, ⟨18, true, 5130431924636301, 41⟩, ⟨20, true, 6458733449978243, 40⟩,
    ⟨22, true, 4810275358487905, 41⟩, ⟨24, false, 1249041124677541, 38⟩, ⟨26, false, 1148817247772549, 39⟩,
    ⟨28, true, 7250310961069179, 43⟩, ⟨30, true, 5383263656106289, 45⟩],
  [⟨1, false, 7720239235413131, 44⟩, ⟨3, false, 601901865489467, 39⟩, ⟨5, true, 6854905509941737, 41⟩,
    ⟨7, true, 4965880117599719, 40⟩, ⟨9, false, 8078431375814769, 41⟩, ⟨11, false, 1540995618158799, 38⟩,
    ⟨13, false, 5977353161208931, 42⟩],
  [⟨16, false, 6612011924499181, 43⟩, ⟨18, false, 8991105274539861, 41⟩, ⟨20, false, 2544937742138057, 39⟩,
    ⟨22, true, 5655849090118413, 41⟩, ⟨24, true, 4434243977631969, 40⟩, ⟨26, false, 1405290015868107, 41⟩,
    ⟨28, false, 3390412541460637, 42⟩, ⟨30, true, 8530785302143681, 48⟩],
  [⟨1, false, 3940171164708511, 46⟩, ⟨3, true, 601901865489467, 39⟩, ⟨5, true, 714013164062833, 40⟩,
    ⟨7, false, 4965880117599719, 40⟩, ⟨9, false, 2285893631300815, 40⟩, ⟨11, true, 1540995618158799, 38⟩,
    ⟨13, true, 7427305165660603, 41⟩],
  [⟨16, true, 4090777381275095, 41⟩, ⟨18, true, 1358893918696341, 38⟩, ⟨20, true, 1261575144067705, 41⟩,
    ⟨22, false, 2398010324519569, 39⟩, ⟨24, false, 4829497488453329, 43⟩, ⟨26, true, 6102322464896025, 42⟩,
    ⟨28, true, 2493197847110631, 45⟩, ⟨30, false, 4494542376171407, 46⟩],
  [⟨1, true, 3940171164708511, 45⟩, ⟨5, false, 714013164062833, 39⟩, ⟨9, true, 2285893631300815, 39⟩,
    ⟨13, false, 7427305165660603, 40⟩],
  [⟨16, false, 4090777381275095, 40⟩, ⟨18, false, 6309730678127651, 41⟩, ⟨20, true, 6572494252588855, 41⟩,
    ⟨22, true, 5801769593479969, 42⟩, ⟨24, false, 2771629336337609, 41⟩, ⟨26, false, 4763531983380969, 44⟩,
    ⟨28, true, 3057216453173759, 44⟩, ⟨30, true, 2345316950390603, 48⟩],
  [⟨0, true, 6030559323094307, 45⟩, ⟨2, true, 6564523445296267, 42⟩, ⟨4, true, 892248944480483, 38⟩,
    ⟨6, true, 2850710831180375, 40⟩, ⟨8, true, 4984499585083955, 43⟩, ⟨10, false, 5135407767828169, 45⟩,
    ⟨12, false, 2750484634668307, 46⟩, ⟨14, true, 3202244703292991, 50⟩],
  [⟨15, true, 4677177756386691, 51⟩, ⟨17, false, 6109724281127351, 48⟩, ⟨19, false, 8017514190393353, 46⟩,
    ⟨21, true, 863397890974711, 41⟩, ⟨23, true, 5645952956931241, 41⟩, ⟨25, true, 4767559972330891, 40⟩,
    ⟨27, true, 6387444713643651, 41⟩, ⟨29, true, 2926385016795767, 42⟩],
  [⟨0, true, 2198220181180393, 42⟩, ⟨2, true, 7226621742672331, 42⟩, ⟨4, false, 3274255445588327, 43⟩,
    ⟨6, false, 8252005428547985, 41⟩, ⟨8, false, 6165892056195821, 41⟩, ⟨10, false, 7503645762691283, 44⟩,
    ⟨12, true, 6928083651997999, 46⟩, ⟨14, true, 2966013536656623, 48⟩],
  [⟨15, true, 4332140053046689, 49⟩, ⟨17, true, 4412578647480865, 46⟩, ⟨19, false, 8741443236929999, 45⟩,
    ⟨21, false, 5143725015021315, 41⟩, ⟨23, false, 4729047430796419, 40⟩, ⟨25, false, 2954626664101149, 41⟩,
    ⟨27, true, 1340472709298193, 39⟩, ⟨29, true, 1742243955158697, 40⟩],
  [⟨0, true, 1139730462591811, 43⟩, ⟨2, false, 3028652066407251, 41⟩, ⟨4, false, 6891134238134219, 41⟩,
    ⟨6, true, 3383316067168975, 42⟩, ⟨8, true, 4477706610482601, 40⟩, ⟨10, true, 8616926407001935, 42⟩,
    ⟨12, true, 8198316666352635, 46⟩, ⟨14, false, 4803367054939487, 47⟩],
  [⟨15, false, 1753941658645009, 46⟩, ⟨17, true, 1866860197011135, 45⟩, ⟨19, true, 6013135642795015, 42⟩,
    ⟨21, true, 1060916198304913, 38⟩, ⟨23, true, 4206978296383303, 41⟩, ⟨25, false, 7442732009223711, 41⟩,
    ⟨27, false, 5952541851801429, 41⟩, ⟨29, true, 6122217689336037, 45⟩],
  [⟨0, false, 4838752481653701, 44⟩, ⟨2, false, 7037314408126033, 44⟩, ⟨4, true, 6578516332342855, 41⟩,
    ⟨6, true, 1895849525984725, 39⟩, ⟨8, false, 1251812381354083, 39⟩, ⟨10, false, 7611487834481925, 41⟩,
    ⟨12, false, 7541059643486865, 43⟩, ⟨14, true, 6824455925050637, 50⟩],
  [⟨15, true, 4983877937133359, 50⟩, ⟨17, false, 4412578647480865, 43⟩, ⟨19, false, 2940396181987517, 40⟩,
    ⟨21, false, 1635139954882043, 39⟩, ⟨23, true, 2772152529618781, 40⟩, ⟨25, true, 2339552060713653, 39⟩,
    ⟨27, false, 2485547415558567, 46⟩, ⟨29, false, 3543878518443133, 42⟩],
  [⟨0, true, 8534636795807537, 47⟩, ⟨2, true, 4846828837887395, 42⟩, ⟨4, false, 8099098856739243, 46⟩,
    ⟨6, false, 1277422801961735, 38⟩, ⟨8, false, 256088529290731, 37⟩, ⟨10, true, 7264566320908227, 41⟩,
    ⟨12, true, 8921678943202499, 42⟩, ⟨14, true, 3472926248397163, 44⟩],
  [⟨15, true, 5072533458130443, 45⟩, ⟨17, true, 705376153984321, 39⟩, ⟨19, true, 416895467522129, 37⟩,
    ⟨21, false, 5572674285696649, 44⟩, ⟨23, false, 666848240396885, 37⟩, ⟨25, false, 1395901018395775, 40⟩,
    ⟨27, true, 3653118162257183, 41⟩, ⟨29, true, 1366828101193597, 42⟩],
  [⟨0, true, 1567514797302311, 44⟩, ⟨2, false, 4005617932779079, 43⟩, ⟨4, false, 8203181902210593, 42⟩,
    ⟨6, true, 7364219749399329, 42⟩, ⟨8, true, 1328418588662269, 38⟩, ⟨10, false, 4336425711311851, 43⟩,
    ⟨12, false, 6441466746473943, 41⟩, ⟨14, false, 6612011924499181, 43⟩],
  [⟨15, false, 2414365387694231, 42⟩, ⟨17, false, 4539864570004351, 41⟩, ⟨19, false, 1645241872168049, 40⟩,
    ⟨21, true, 3966864195476167, 40⟩, ⟨23, true, 3271402748223111, 40⟩, ⟨25, false, 3774604169271511, 41⟩,
    ⟨27, false, 2319022161744847, 41⟩, ⟨29, true, 6481778528447511, 45⟩],
  [⟨0, false, 7816426277147513, 47⟩, ⟨2, false, 8607630753458149, 45⟩, ⟨4, true, 4911439469050783, 42⟩,
    ⟨6, true, 3979003708450941, 41⟩, ⟨8, false, 6691156501338291, 41⟩, ⟨10, false, 489629337291035, 37⟩,
    ⟨12, true, 1140355167860769, 39⟩, ⟨14, true, 4090777381275095, 41⟩],
  [⟨15, true, 5974962798550083, 42⟩, ⟨17, true, 4539864570004351, 41⟩, ⟨19, false, 6938407455399665, 42⟩,
    ⟨21, false, 3966864195476167, 40⟩, ⟨23, true, 6842908813446609, 43⟩, ⟨25, true, 3774604169271511, 41⟩,
    ⟨27, false, 5586717428477187, 45⟩, ⟨29, false, 6481778528447511, 45⟩],
  [⟨0, false, 2345316950390603, 48⟩, ⟨2, true, 3057216453173759, 44⟩, ⟨4, true, 4763531983380969, 44⟩,
    ⟨6, false, 2771629336337609, 41⟩, ⟨8, false, 5801769593479969, 42⟩, ⟨10, true, 6572494252588855, 41⟩,
    ⟨12, true, 6309730678127651, 41⟩, ⟨14, false, 4090777381275095, 40⟩],
  [⟨15, false, 5974962798550083, 41⟩, ⟨19, true, 6938407455399665, 41⟩, ⟨23, false, 6842908813446609, 42⟩,
    ⟨27, true, 5586717428477187, 44⟩]]

/-- The arrays `s2t`: so3/_tensor_conversion_lut.npz. -/
def shippedS2t : List (List (List ShippedEntry)) :=
  [shippedS2t0, shippedS2t1, shippedS2t2, shippedS2t3, shippedS2t4, shippedS2t5, shippedS2t6, shippedS2t7,
    shippedS2t8, shippedS2t9, shippedS2t10, shippedS2t11, shippedS2t12, shippedS2t13, shippedS2t14, shippedS2t15]

/-- The arrays `t2s`: so3/_tensor_conversion_lut.npz. -/
def shippedT2s : List (List (List ShippedEntry)) :=
  [shippedT2s0, shippedT2s1, shippedT2s2, shippedT2s3, shippedT2s4, shippedT2s5, shippedT2s6, shippedT2s7,
    shippedT2s8, shippedT2s9, shippedT2s10, shippedT2s11, shippedT2s12, shippedT2s13, shippedT2s14, shippedT2s15]

/-- The array with the given rows: the entry listed for a position, and zero at all other positions. -/
noncomputable def sparseArray (rows : List (List ShippedEntry)) (i j : Nat) : ℝ :=
  match (rows.getD i []).find? (fun e => e.column == j) with
  | some e => e.value
  | none => 0

/-- The content of the archive so3/_tensor_conversion_lut.npz. -/
noncomputable def shippedTensorConversion : TCCompressed (Nat → Nat → ℝ) where
  maxDegree := 15
  s2t := fun l => shippedS2t[l]?.map sparseArray
  t2s := fun l => shippedT2s[l]?.map sparseArray

end E3x
