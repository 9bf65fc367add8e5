import Verif.Proof.Conceal
import Verif.Props.Render

/-! Lemmas about reading from nothing: all bits are zero, and the frame that they make is gray. -/

namespace Alfalfa
open RenderSpec

/-- A decoder without data. -/
structure ZeroDec (d : BoolDecoder) : Prop where
  ok : DecOk d
  value : d.value = 0
  chunk : d.chunk = []

theorem zeroDec_load {d : BoolDecoder} (hv : d.value = 0) (hc : d.chunk = []) : d.loadOctet.value = 0 ∧ d.loadOctet.chunk = [] := by
  unfold BoolDecoder.loadOctet
  split
  · next h => rw [hc] at h; exact nomatch h
  · split <;> exact ⟨hv, hc⟩

theorem zeroDec_shift {d : BoolDecoder} (hv : d.value = 0) (hc : d.chunk = []) : d.shiftOnce.value = 0 ∧ d.shiftOnce.chunk = [] := by
  unfold BoolDecoder.shiftOnce
  dsimp only
  split
  · refine zeroDec_load ?_ hc
    dsimp only
    rw [hv]; rfl
  · dsimp only
    rw [hv]
    exact ⟨rfl, hc⟩

theorem zeroDec_renorm : ∀ (n : Nat) {d : BoolDecoder}, d.value = 0 → d.chunk = [] → (d.renorm n).value = 0 ∧ (d.renorm n).chunk = []
  | 0, _, hv, hc => ⟨hv, hc⟩
  | n + 1, d, hv, hc => by
    unfold BoolDecoder.renorm
    split
    · obtain ⟨h1, h2⟩ := zeroDec_shift hv hc
      exact zeroDec_renorm n h1 h2
    · exact ⟨hv, hc⟩

theorem zeroDec_init (c : Bool) : ZeroDec (BoolDecoder.init [] c) := by
  refine ⟨init_decOk [] c, ?_, ?_⟩ <;> cases c <;> rfl

theorem zeroDec_get {d : BoolDecoder} (h : ZeroDec d) (p : Prob) : (d.get p).1 = false ∧ ZeroDec (d.get p).2 := by
  have hs : ¬ (splitPoint d.range p <<< 8) % 2 ^ 32 ≤ d.value := by
    rw [h.value]
    have s1 := splitPoint_lt d.range p (by have := h.ok.r1; omega)
    have s2 := splitPoint_pos d.range p
    rw [Nat.shiftLeft_eq]
    have := h.ok.r2
    omega
  refine ⟨?_, get_decOk h.ok p, ?_, ?_⟩
  · unfold BoolDecoder.get
    simp only
    rw [if_neg hs]
  · unfold BoolDecoder.get
    simp only
    rw [if_neg hs]
    exact (zeroDec_renorm 8 (by exact h.value) (by exact h.chunk)).1
  · unfold BoolDecoder.get
    simp only
    rw [if_neg hs]
    exact (zeroDec_renorm 8 (by exact h.value) (by exact h.chunk)).2

/-- What a parser makes of no data. -/
def Zeros {α : Type} (p : Parser α) (x : α) : Prop := ∀ d, ZeroDec d → ∃ d', p d = some (x, d') ∧ ZeroDec d'

theorem Zeros.pure {α : Type} {x y : α} (h : x = y) : Zeros (Pure.pure x) y := fun d hd => ⟨d, by rw [h]; rfl, hd⟩

theorem Zeros.lift {α : Type} {o : Option α} {x : α} (h : o = some x) : Zeros (liftM o) x := fun d hd => ⟨d, by rw [h]; rfl, hd⟩

theorem Zeros.bind {α β : Type} {p : Parser α} {f : α → Parser β} {x : α} {y : β} (hp : Zeros p x) (hf : Zeros (f x) y) : Zeros (p >>= f) y := by
  intro d hd
  obtain ⟨d1, h1, h2⟩ := hp d hd
  obtain ⟨d2, h3, h4⟩ := hf d1 h2
  refine ⟨d2, ?_, h4⟩
  show (p d >>= fun x => f x.1 x.2) = _
  rw [h1]
  exact h3

theorem Zeros.map {α β : Type} {p : Parser α} {f : α → β} {x : α} (hp : Zeros p x) : Zeros (f <$> p) (f x) := by
  intro d hd
  obtain ⟨d1, h1, h2⟩ := hp d hd
  refine ⟨d1, ?_, h2⟩
  show (p d >>= fun x => _) = _
  rw [h1]; rfl

theorem Zeros.getBit (p : Prob) : Zeros (getBit p) false := by
  intro d hd
  obtain ⟨h1, h2⟩ := zeroDec_get hd p
  exact ⟨_, by rw [← h1]; rfl, h2⟩

theorem Zeros.flagged {α : Type} (q : Prob) (p : Parser α) : Zeros (parseFlagged q p) none := .bind (.getBit q) (.pure rfl)

theorem Zeros.optional {α : Type} {p : Parser α} {x : α} (h : Zeros p x) : Zeros (parseOptional true p) (some x) := .map h

theorem Zeros.absent {α : Type} (p : Parser α) : Zeros (parseOptional false p) none := .pure rfl

theorem Zeros.unsigned : ∀ w, Zeros (parseUnsigned w) 0
  | 0 => .pure rfl
  | w + 1 => .bind (.getBit _) (.bind (Zeros.unsigned w) (.pure (by simp)))

theorem Zeros.fin {α : Type} : ∀ {n : Nat} {p : Fin n → Parser α} {x : Fin n → α}, (∀ i, Zeros (p i) (x i)) → Zeros (parseFin n p) x
  | 0, _, _, _ => .pure (funext fun i => i.elim0)
  | n + 1, _, x, h => .bind (h 0) (.bind (Zeros.fin (x := fun i => x i.succ) fun i => h i.succ) (.pure (funext fun i => by
      cases i using Fin.cases <;> rfl)))

theorem Zeros.tree {nodes : List Int} {probs : List Prob} {n : Nat} {p : Prob} {v : Int} (hn : nodes.length = n + 1) (hp : probs[0]? = some p)
    (hv : nodes[0]? = some v) (h : ¬ 0 < v) : Zeros (readTree nodes probs) (-v).toNat := by
  unfold readTree
  rw [hn]
  unfold readTreeFrom
  refine .bind (.lift hp) (.bind (.getBit _) (.bind (.lift hv) ?_))
  rw [if_neg h]
  exact .pure rfl

/-- The header of an inter frame without data. -/
def zeroInterHeader : InterFrameHeader where
  updateSegmentation := none
  filterType := false
  loopFilterLevel := 0
  sharpnessLevel := 0
  modeLfAdjustments := none
  log2Partitions := 0
  quantIndices := ⟨0, none, none, none, none, none⟩
  refreshGoldenFrame := false
  refreshAlternateFrame := false
  copyBufferToGolden := some 0
  copyBufferToAlternate := some 0
  signBiasGolden := false
  signBiasAlternate := false
  refreshEntropyProbs := false
  refreshLast := false
  tokenProbUpdate := fun _ _ _ _ => none
  probSkipFalse := none
  probInter := 0
  probReferencesLast := 0
  probReferencesGolden := 0
  intra16x16Prob := none
  intraChromaProb := none
  mvProbUpdate := fun _ _ => none

theorem Zeros.quantIndices : Zeros parseQuantIndices ⟨0, none, none, none, none, none⟩ :=
  .bind (.unsigned _) (.bind (.flagged _ _) (.bind (.flagged _ _) (.bind (.flagged _ _) (.bind (.flagged _ _) (.bind (.flagged _ _) (.pure rfl))))))

theorem Zeros.interHeader : Zeros parseInterFrameHeader zeroInterHeader := by
  refine .bind (x := zeroInterHeader) ?_ (.pure rfl)
  exact .bind (.flagged _ _) (.bind (.getBit _) (.bind (.unsigned _) (.bind (.unsigned _) (.bind (.flagged _ _) (.bind (.unsigned _) (.bind .quantIndices
    (.bind (.getBit _) (.bind (.getBit _) (.bind (.optional (.unsigned _)) (.bind (.optional (.unsigned _)) (.bind (.getBit _) (.bind (.getBit _)
    (.bind (.getBit _) (.bind (.getBit _) (.bind (.fin (x := fun _ _ _ _ => none) fun _ => .fin fun _ => .fin fun _ => .fin fun _ => .flagged _ _)
    (.bind (.flagged _ _) (.bind (.unsigned _) (.bind (.unsigned _) (.bind (.unsigned _) (.bind (.flagged _ _) (.bind (.flagged _ _)
    (.bind (.fin (x := fun _ _ => none) fun _ => .fin fun _ => .flagged _ _) (.pure rfl)))))))))))))))))))))))

theorem Zeros.interMB (t : ProbabilityTables) (c : MBContext) : Zeros (parseInterMB zeroInterHeader t c) {} := by
  refine .bind (.absent _) (.bind (.absent _) (.bind (.getBit _) (.bind (.absent _) (.bind (.absent _) ?_))))
  refine .bind (x := 0) (.tree (n := 7) (v := 0) rfl (p := t.yModeProbs 0) (by simp) rfl (by decide)) ?_
  refine .bind (x := fun _ => B_DC_PRED) (.bind (.lift (by decide)) (.pure rfl)) ?_
  exact .bind (x := 0) (.tree (n := 5) (v := 0) rfl (p := t.uvModeProbs 0) (by simp) rfl (by decide)) (.pure rfl)

theorem Zeros.mbs {p : MBContext → Parser MBModes} (h : ∀ c, Zeros (p c) {}) (w ht : Nat) :
    ∀ n cells, Zeros (parseMBs p w ht n cells) (cells ++ List.replicate n ({} : MBModes))
  | 0, _ => .pure (by simp)
  | n + 1, cells => .bind (h _) (by
      have := Zeros.mbs h w ht n (cells ++ [({} : MBModes)])
      rwa [List.append_assoc, List.singleton_append, ← List.replicate_succ] at this)

theorem Zeros.tokens (probs : CoeffProbs) (type : BlockType) (above left : Option Bool) (b : Block) : Zeros (parseTokens probs type above left b) b := by
  unfold parseTokens
  have : ∃ i l, indicesFrom type.first = i :: l := by cases type <;> exact ⟨_, _, rfl⟩
  obtain ⟨i, l, e⟩ := this
  rw [e]
  exact .bind (x := false) (.getBit _) (.pure rfl)

theorem Zeros.fillGroups {T : Type} {step : (Fin 16 → T) → Fin 16 → Parser T} {x : T} (h : ∀ c i, Zeros (step c i) x) :
    ∀ (l : List (List (Fin 16))), (∀ g ∈ l, g ≠ []) → Zeros (fillGroups step l fun _ => x) fun _ => x
  | [], _ => .pure rfl
  | [] :: _, hl => absurd rfl (hl _ List.mem_cons_self)
  | (i :: g) :: rest, hl => .bind (h _ i) (by
      have := Zeros.fillGroups h rest fun g hg => hl g (List.mem_cons_of_mem _ hg)
      simpa only [ite_self] using this)

theorem Zeros.chroma (probs : CoeffProbs) (above left : Option (Fin 4 → Block)) : Zeros (parseChroma probs above left) fun _ => {} :=
  .bind (.tokens _ _ _ _ _) (.bind (.tokens _ _ _ _ _) (.bind (.tokens _ _ _ _ _) (.bind (.tokens _ _ _ _ _) (.pure (by
    funext i; fin_cases i <;> rfl)))))

theorem Zeros.residue (probs : CoeffProbs) (a l : Option Bool) (above left : Option Residue) : Zeros (parseResidue probs {} a l above left) {} := by
  unfold parseResidue
  rw [if_neg (by decide)]
  refine .bind (x := ({} : Block)) (Zeros.tokens probs .y2 a l {}) ?_
  refine .bind (x := fun _ => {}) (.fillGroups (step := parseLuma _ _ _ _) (x := ({} : Block)) (fun c i => Zeros.tokens _ _ _ _ _) singleGroups (by simp [singleGroups])) ?_
  refine .bind (.chroma _ _ _) (.bind (.chroma _ _ _) (.pure ?_))
  simp

theorem residues_of_nothing (probs : CoeffProbs) (w : Nat) : ∀ (l : List (MBModes × Option Nat × Option Nat)), (∀ x ∈ l, x.1 = {}) →
    ∀ (cells : List Residue) (d : BoolDecoder), ZeroDec d → parseResidues probs w l cells [d] = some (cells ++ List.replicate l.length ({} : Residue))
  | [], _, cells, _, _ => by unfold parseResidues; simp
  | (m, la, ll) :: rest, hl, cells, d, hd => by
    have hm : m = {} := hl _ List.mem_cons_self
    subst hm
    unfold parseResidues
    simp only [List.length_singleton, Nat.mod_one, List.getElem?_cons_zero, Option.bind_eq_bind, Option.bind_some]
    obtain ⟨d', h1, h2⟩ := Zeros.residue probs (linkFlag cells la) (linkFlag cells ll) (gridAbove w cells cells.length) (gridLeft w cells cells.length) d hd
    rw [h1]
    simp only [Option.bind_some, List.set_cons_zero]
    rw [residues_of_nothing probs w rest (fun x hx => hl x (List.mem_cons_of_mem _ hx)) _ _ h2, List.append_assoc, List.singleton_append,
      List.length_cons, List.replicate_succ]

/-- The frame that is made of no data. -/
def zeroFrame (shown : Bool) (width height : Nat) : ParsedFrame InterFrameHeader :=
  let n := macroblockDimension width * macroblockDimension height
  { frame := { show' := shown, width, height, header := zeroInterHeader, modes := List.replicate n {}, residues := List.replicate n {} }
    segmentIds := List.replicate n 0 }

theorem applyInter_nothing (st : DecoderState) {c : FrameParts} (h1 : c.firstPartition = []) (h2 : c.rest = []) :
    st.applyInter c = ({ st with segmentation := none, filterAdjustments := none }, .ok (zeroFrame c.showFrame st.width st.height)) := by
  unfold DecoderState.applyInter
  rw [h1]
  obtain ⟨d, e1, e2⟩ := Zeros.interHeader _ (zeroDec_init false)
  rw [e1]
  dsimp only
  have es : st.applyInterHeader zeroInterHeader = { st with segmentation := none, filterAdjustments := none } := rfl
  rw [es]
  unfold parseBody
  obtain ⟨d', e3, -⟩ := Zeros.mbs (Zeros.interMB (interKind.tables st.tables zeroInterHeader)) (macroblockDimension st.width) (macroblockDimension st.height)
    (macroblockDimension st.width * macroblockDimension st.height) [] d e2
  have e4 : interKind.parseModes zeroInterHeader (interKind.tables st.tables zeroInterHeader) st.width st.height d =
    some (List.replicate (macroblockDimension st.width * macroblockDimension st.height) {}, d') := e3
  dsimp only
  rw [e4]
  dsimp only [applySegmentation]
  rw [h2]
  have e5 : dctPartitions [] (interKind.partitionCount zeroInterHeader) = .ok [[]] := rfl
  rw [e5]
  dsimp only
  unfold parseFrameTokens
  rw [List.map_cons, List.map_nil]
  dsimp only
  rw [residues_of_nothing _ _ _ ?_ _ _ (zeroDec_init true)]
  · dsimp only
    unfold zeroFrame
    rw [List.nil_append, List.length_zip, y2Links, relinkY2_length, Nat.min_self, List.length_replicate, List.map_replicate]
  · intro x hx
    exact List.eq_of_mem_replicate (List.of_mem_zip (a := x.1) (b := x.2) hx).1

/-! ### Its picture -/

theorem grayPlane_px {w h x y : Nat} (hx : x < w) (hy : y < h) : Plane.px ⟨w, h, List.replicate (w * h) 128⟩ x y = 128 := by
  unfold Plane.px
  dsimp only
  have : y * w + x < w * h := by
    have : (y + 1) * w ≤ h * w := Nat.mul_le_mul_right w hy
    rw [Nat.add_mul, Nat.one_mul, Nat.mul_comm h w] at this
    omega
  rw [if_pos hx, List.getD_eq_getElem?_getD, List.getElem?_replicate, if_pos this, Option.getD_some]

theorem mean_gray {n : Nat} (hn : n = 16 ∨ n = 8) {above left : Bool} {e : Int → Nat} (ha : above = true → ∀ i : Fin n, e (1 + i) = 128)
    (hl : left = true → ∀ i : Fin n, e (-1 - i) = 128) : IntraSpec.mean n above left e = 128 := by
  unfold IntraSpec.mean
  have key : ∀ f : Fin n → Nat, (∀ i, f i = 128) → ∑ i : Fin n, f i = n * 128 := by
    intro f hf
    rw [Finset.sum_congr rfl fun i _ => hf i, Finset.sum_const, Finset.card_univ, Fintype.card_fin, smul_eq_mul]
  cases above <;> cases left <;> dsimp only
  · rw [key _ (hl rfl)]; rcases hn with rfl | rfl <;> rfl
  · rw [key _ (ha rfl)]; rcases hn with rfl | rfl <;> rfl
  · rw [key _ (ha rfl), key _ (hl rfl)]; rcases hn with rfl | rfl <;> rfl

theorem edge_above {w h n column row : Nat} (hc : column < w) (hr : row < h) (h0 : 0 < row) (i : Fin n) :
    IntraSpec.edge ⟨w * n, h * n, List.replicate (w * n * (h * n)) 128⟩ n column row (1 + i) = 128 := by
  have hn : 0 < n := i.pos
  unfold IntraSpec.edge
  rw [if_neg (by omega)]
  have e1 : ((n : Int) * column - 1 + (1 + (i : Nat))) = ((n * column + i : Nat) : Int) := by push_cast; omega
  have e2 : (n : Int) * row - 1 = ((n * row - 1 : Nat) : Int) := by
    have : 0 < n * row := Nat.mul_pos hn h0
    push_cast [Nat.cast_sub this]; rfl
  rw [e1, e2]
  unfold IntraSpec.framed
  rw [if_neg (by omega), if_neg (by omega), Int.toNat_natCast, Int.toNat_natCast, grayPlane_px]
  · rfl
  · have := mb_bounds (n := n) hc
    rw [Nat.mul_comm w n]
    have := i.isLt
    omega
  · have := mb_bounds (n := n) hr
    rw [Nat.mul_comm h n]
    omega

theorem edge_left {w h n column row : Nat} (hc : column < w) (hr : row < h) (h0 : 0 < column) (i : Fin n) :
    IntraSpec.edge ⟨w * n, h * n, List.replicate (w * n * (h * n)) 128⟩ n column row (-1 - i) = 128 := by
  have hn : 0 < n := i.pos
  unfold IntraSpec.edge
  rw [if_pos (by omega)]
  have e1 : ((n : Int) * row - 1 - (-1 - (i : Nat))) = ((n * row + i : Nat) : Int) := by push_cast; omega
  have e2 : (n : Int) * column - 1 = ((n * column - 1 : Nat) : Int) := by
    have : 0 < n * column := Nat.mul_pos hn h0
    push_cast [Nat.cast_sub this]; rfl
  rw [e1, e2]
  unfold IntraSpec.framed
  rw [if_neg (by omega), if_neg (by omega), Int.toNat_natCast, Int.toNat_natCast, grayPlane_px]
  · rfl
  · have := mb_bounds (n := n) hc
    rw [Nat.mul_comm w n]
    omega
  · have := mb_bounds (n := n) hr
    rw [Nat.mul_comm h n]
    have := i.isLt
    omega

theorem gray_sum {w h n column row : Nat} (hn : n = 16 ∨ n = 8) (hc : column < w) (hr : row < h) :
    Sum n ⟨w * n, h * n, List.replicate (w * n * (h * n)) 128⟩ column row
      (fun x y => IntraSpec.whole n DC_PRED (decide (0 < row)) (decide (0 < column))
        (IntraSpec.edge ⟨w * n, h * n, List.replicate (w * n * (h * n)) 128⟩ n column row) x y) fun _ _ => 0 := by
  intro x y
  have e : IntraSpec.whole n DC_PRED (decide (0 < row)) (decide (0 < column))
      (IntraSpec.edge ⟨w * n, h * n, List.replicate (w * n * (h * n)) 128⟩ n column row) x y = 128 := by
    unfold IntraSpec.whole
    rw [if_pos rfl]
    exact mean_gray hn (fun h0 i => edge_above hc hr (of_decide_eq_true h0) i) (fun h0 i => edge_left hc hr (of_decide_eq_true h0) i)
  beta_reduce
  rw [e, grayPlane_px]
  · rfl
  · have := mb_bounds (n := n) hc
    rw [Nat.mul_comm w n]
    have := x.isLt
    omega
  · have := mb_bounds (n := n) hr
    rw [Nat.mul_comm h n]
    have := y.isLt
    omega

theorem gray_sums {w h k : Nat} (hk : k < (w + 15) / 16 * ((h + 15) / 16)) (reference : Raster) (q : Quantizer) :
    Sums reference {} (codeResidues q {} {}) (k % ((w + 15) / 16)) (k / ((w + 15) / 16)) (grayRaster w h 128) := by
  have h0 : 0 < (w + 15) / 16 := by
    rcases Nat.eq_zero_or_pos ((w + 15) / 16) with e | e
    · rw [e, Nat.zero_mul] at hk; omega
    · exact e
  have hc : k % ((w + 15) / 16) < (w + 15) / 16 := Nat.mod_lt _ h0
  have hr : k / ((w + 15) / 16) < (h + 15) / 16 := Nat.div_lt_of_lt_mul hk
  exact ⟨gray_sum (.inl rfl) hc hr, gray_sum (.inr rfl) hc hr, gray_sum (.inr rfl) hc hr⟩

theorem zeroFrame_ok {st : DecoderState} (hst : st.Ok) (shown : Bool) :
    InterFrameOk (zeroFrame shown st.width st.height).frame ∧ (zeroFrame shown st.width st.height).segmentIds.length = (zeroFrame shown st.width st.height).frame.modes.length ∧
      ∀ v ∈ (zeroFrame shown st.width st.height).segmentIds, v < 4 := by
  have e := applyInter_nothing st (c := { keyFrame := false, showFrame := shown, experimental := false, firstPartition := [], rest := [], corruption := .frame }) rfl rfl
  obtain ⟨-, h | h | ⟨p, h1, h2, -, -, h3, h4⟩⟩ := C12_inter_frame_total st hst { keyFrame := false, showFrame := shown, experimental := false, firstPartition := [], rest := [], corruption := .frame }
  · rw [e] at h; exact nomatch h
  · rw [e] at h; exact nomatch h
  · rw [e] at h1
    injection h1 with h1
    subst h1
    exact ⟨h2, h3, h4⟩

theorem zeroFrame_gray {st : DecoderState} (hst : st.Ok) {refs : References} (hrefs : refs.Ok st.width st.height) (shown : Bool)
    (seg : Option Segmentation) (adj : Option FilterAdjustments) :
    codeRenderer.inter seg adj refs (zeroFrame shown st.width st.height) = grayRaster st.width st.height 128 := by
  obtain ⟨h1, h2, h3⟩ := zeroFrame_ok hst shown
  have hr := InterFrameOk.ready h1 h2 h3
  obtain ⟨Q, hQ⟩ := quantizers_exist h1.header.quantIndices seg
  have hb := blank_ok st.width st.height
  obtain ⟨s, e1, e2, e3⟩ := decodeInter_sums h1 hr hQ hrefs hb
  have hg : s = grayRaster st.width st.height 128 := by
    refine frame_unique hr e2 (grayRaster_ok _ _ _) e3 fun k hk => ?_
    have m : modeAt (zeroFrame shown st.width st.height) k = {} := by
      unfold modeAt zeroFrame; dsimp only; rw [List.getElem?_replicate]; split <;> rfl
    have r : residueAt (zeroFrame shown st.width st.height) k = {} := by
      unfold residueAt zeroFrame; dsimp only; rw [List.getElem?_replicate]; split <;> rfl
    rw [m, r]
    exact gray_sums hk _ _
  subst hg
  have : renderInter seg adj refs (zeroFrame shown st.width st.height) (blankRaster st.width st.height) = some (grayRaster st.width st.height 128) := by
    unfold renderInter
    have e1 : decodeInterFrame seg refs (zeroFrame shown st.width st.height) (blankRaster st.width st.height) = some (grayRaster st.width st.height 128) := e1
    rw [e1]
    rfl
  show settled st.width st.height _ = _
  have e : (zeroFrame shown st.width st.height).frame.width = st.width := rfl
  have e' : (zeroFrame shown st.width st.height).frame.height = st.height := rfl
  rw [e, e', this]
  exact settled_eq (grayRaster_ok _ _ _)

end Alfalfa
