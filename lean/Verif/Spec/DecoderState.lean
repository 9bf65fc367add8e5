import Verif.Model.DecoderState
import Verif.Spec.Frame

/-! Which decoder states can arise. -/

namespace Alfalfa

/-- A segmentation whose map covers the picture and holds segment numbers, with adjustments of the width the format gives
them. -/
structure Segmentation.Ok (width height : Nat) (s : Segmentation) : Prop where
  mapWidth : s.mapWidth = width
  mapHeight : s.mapHeight = height
  size : s.map.length = width * height
  cells : ∀ v ∈ s.map, v < 4
  quantizer : ∀ i, -127 ≤ s.quantizer i ∧ s.quantizer i ≤ 127
  filter : ∀ i, -63 ≤ s.filter i ∧ s.filter i ≤ 63

/-- Loop-filter adjustments of the width the format gives them. -/
structure FilterAdjustments.Ok (a : FilterAdjustments) : Prop where
  ref : ∀ i, -63 ≤ a.ref i ∧ a.ref i ≤ 63
  mode : ∀ i, -63 ≤ a.mode i ∧ a.mode i ≤ 63

/-- A state of a decoder of a nonempty picture. -/
structure DecoderState.Ok (st : DecoderState) : Prop where
  width : 0 < st.width ∧ st.width < 2 ^ 14
  height : 0 < st.height ∧ st.height < 2 ^ 14
  segmentation : ∀ s, st.segmentation = some s → s.Ok st.width st.height
  filterAdjustments : ∀ a, st.filterAdjustments = some a → a.Ok

end Alfalfa
