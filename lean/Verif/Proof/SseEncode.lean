import Verif.Props.SseTransform
import Verif.Proof.TwoPass
import Verif.Proof.SseRender
import Verif.Proof.Reencode
import Verif.Props.Encode
import Verif.Props.SecondPass
import Verif.Model.SseEncode

/-! The frames that the encoder makes have sums that fit in 16 bits. -/

namespace Alfalfa

open RenderSpec TransformSpec

/-- The coefficients of a macroblock as the encoder makes them have sums that fit. -/
theorem sumsFit_of {q : Quantizer} {r : Residue} (m : MBModes) (h2 : WalshFits (scaled q.y2Dc q.y2Ac r.y2)) (hy : ∀ k, SmallBlock q.yDc q.yAc (r.y k))
    (hu : ∀ k, SmallBlock q.uvDc q.uvAc (r.u k)) (hv : ∀ k, SmallBlock q.uvDc q.uvAc (r.v k)) : SumsFit q m r := by
  have hw : ∀ column row, |walsh (scaled q.y2Dc q.y2Ac r.y2) column row| ≤ 3800 := fun column row => by
    have := h2.sums column row
    rw [abs_le]
    omega
  have hl : ∀ k, (∀ i, -32768 ≤ lumaCoefficients q m r k i ∧ lumaCoefficients q m r k i ≤ 32767) ∧ Fits line (lumaCoefficients q m r k) ∧
      ∀ column row, -32768 ≤ both line (lumaCoefficients q m r k) column row + 4 ∧ both line (lumaCoefficients q m r k) column row + 4 ≤ 32767 := fun k => by
    apply both_range
    · unfold lumaCoefficients
      split
      · exact hw _ _
      · exact (hy k 0).trans (by norm_num)
    · intro i hi
      unfold lumaCoefficients
      rw [if_neg fun h => hi h.2]
      exact hy k i
  have hc : ∀ b : Block, SmallBlock q.uvDc q.uvAc b → _ := fun b hb => both_range (c := scaled q.uvDc q.uvAc b) ((hb 0).trans (by norm_num)) (fun i _ => hb i)
  exact {
    y2 := h2.each
    walsh := h2.fits
    y := fun k i => by have := abs_le.1 (hy k i); omega
    luma := fun k => (hl k).2.1
    u := fun k => (hc _ (hu k)).1
    v := fun k => (hc _ (hv k)).1
    chromaU := fun k => (hc _ (hu k)).2.1
    chromaV := fun k => (hc _ (hv k)).2.1
    walshSums := fun column row => by
      have := h2.sums column row
      unfold TransformSpec.walsh at this
      unfold Short
      omega
    lumaSums := fun k => (hl k).2.2
    uSums := fun k => (hc _ (hu k)).2.2
    vSums := fun k => (hc _ (hv k)).2.2 }

theorem bind_some {α β : Type} {x : Option α} {f : α → Option β} {b : β} (h : (x >>= f) = some b) : ∃ a, x = some a ∧ f a = some b :=
  Option.bind_eq_some_iff.1 h

/-- Two computations that begin with the same and go on with the same for what that can give. -/
theorem bind_same {α β : Type} {x y : Option α} (hxy : x = y) {f g : α → Option β} (h : ∀ a, y = some a → f a = g a) : (x >>= f) = (y >>= g) := by
  subst hxy
  cases x with
  | none => rfl
  | some a => exact h a rfl

theorem lumaDct_small {o p : Plane} {column row : Nat} {k : Fin 16} {c : Fin 16 → Int} (h : lumaDct o p column row k = some c) : ∀ i, |c i| ≤ 2041 := by
  obtain ⟨a, -, h⟩ := bind_some h
  obtain ⟨b, -, h⟩ := bind_some h
  cases h
  exact C41_forward_range a b

theorem chromaDct_small {o p : Plane} {column row : Nat} {k : Fin 4} {c : Fin 16 → Int} (h : chromaDct o p column row k = some c) : ∀ i, |c i| ≤ 2041 := by
  obtain ⟨a, -, h⟩ := bind_some h
  obtain ⟨b, -, h⟩ := bind_some h
  cases h
  exact C41_forward_range a b

theorem codeChroma_small {pass : Option SecondPass} {mb : Nat} {first : Fin 21} {q : Quantizer} (hq : q.InRange) {o p : Plane} {column row : Nat} {u : Fin 4 → Block}
    (h : codeChroma pass mb first q o p column row = some u) (k : Fin 4) : SmallBlock q.uvDc q.uvAc (u k) := by
  obtain ⟨c, hc, h⟩ := bind_some h
  obtain ⟨z, hz, h⟩ := bind_some h
  cases h
  exact compress_small (type := .uv) (chromaDct_small (allSome_iff.1 hc k)) ⟨Nat.lt_of_lt_of_le (by decide) hq.uvDc.1, Nat.lt_of_lt_of_le (by decide) hq.uvAc.1⟩ (fun h => nomatch h)
    (allSome_iff.1 hz k)

theorem codePlain_small {mb : Nat} {q : Quantizer} {o p : Plane} {column row : Nat} {y : Fin 16 → Block}
    (h : codePlain mb q o p column row = some y) (k : Fin 16) : SmallBlock q.yDc q.yAc (y k) := by
  obtain ⟨c, hc, h⟩ := bind_some h
  obtain ⟨z, hz, h⟩ := bind_some h
  cases h
  exact quantize_small (lumaDct_small (allSome_iff.1 hc k)) (allSome_iff.1 hz k)

theorem codeWhole_fits {pass : Option SecondPass} {mb : Nat} {q : Quantizer} (hq : q.InRange) {o p : Plane} {column row : Nat} {y : Block × (Fin 16 → Block)}
    (h : codeWhole pass mb q o p column row = some y) : WalshFits (scaled q.y2Dc q.y2Ac y.1) ∧ ∀ k, SmallBlock q.yDc q.yAc (y.2 k) := by
  obtain ⟨c, hc, h⟩ := bind_some h
  obtain ⟨z, hz, h⟩ := bind_some h
  obtain ⟨y2, hy2, h⟩ := bind_some h
  cases h
  have hs : ∀ k i, |c k i| ≤ 2041 := fun k => lumaDct_small (allSome_iff.1 hc k)
  refine ⟨wht_fits hq (fun k => hs k 0) hy2, fun k => compress_small (type := .yAfterY2) (fun i => ?_)
    ⟨Nat.lt_of_lt_of_le (by decide) hq.yDc.1, Nat.lt_of_lt_of_le (by decide) hq.yAc.1⟩ (fun _ => Function.update_self ..) (allSome_iff.1 hz k)⟩
  by_cases hi : i = 0
  · subst hi; rw [Function.update_self]; decide
  · rw [Function.update_of_ne hi]; exact hs k i

/-- An invariant of a loop that may fail. -/
theorem foldlM_inv {α β : Type} {f : β → α → Option β} (P : β → Prop) (step : ∀ b a b', P b → f b a = some b' → P b') :
    ∀ (l : List α) {b b' : β}, P b → l.foldlM f b = some b' → P b'
  | [], b, b', hb, h => by cases h; exact hb
  | a :: l, b, b', hb, h => by
    rw [List.foldlM_cons] at h
    obtain ⟨c, hc, h⟩ := bind_some h
    exact foldlM_inv P step l (step b a c hb hc) h

theorem codeIntraLuma_fits {pass : Option SecondPass} {mb : Nat} {q : Quantizer} (hq : q.InRange) {choice : IntraChoice} (hk : TypeKept pass mb choice) {o p : Plane} {column row : Nat} {y : Block × (Fin 16 → Block)}
    (h : codeIntraLuma pass mb q choice o p column row = some y) : WalshFits (scaled q.y2Dc q.y2Ac y.1) ∧ ∀ k, SmallBlock q.yDc q.yAc (y.2 k) := by
  unfold codeIntraLuma at h
  split at h
  · rename_i hB
    obtain ⟨s, hs, h⟩ := bind_some h
    cases h
    refine ⟨walshFits_empty _ _, foldlM_inv (fun s : Plane × (Fin 16 → Block) => ∀ k, SmallBlock q.yDc q.yAc (s.2 k)) (fun b a b' hb he => ?_) _ (fun k i => ?_) hs⟩
    · obtain ⟨p1, -, he⟩ := bind_some he
      obtain ⟨c, hc, he⟩ := bind_some he
      obtain ⟨z, hz, he⟩ := bind_some he
      obtain ⟨p2, -, he⟩ := bind_some he
      cases he
      intro k
      dsimp only
      by_cases hka : k = a
      · subst hka
        rw [Function.update_self]
        rw [staleType_kept hk hB] at hz
        exact compress_small (type := .yWithoutY2) (lumaDct_small hc) ⟨Nat.lt_of_lt_of_le (by decide) hq.yDc.1, Nat.lt_of_lt_of_le (by decide) hq.yAc.1⟩ (fun h => nomatch h) hz
      · rw [Function.update_of_ne hka]
        exact hb k
    · have e : scaled q.yDc q.yAc {} i = 0 := Int.zero_mul _
      rw [e]
      decide
  · obtain ⟨p1, -, h⟩ := bind_some h
    exact codeWhole_fits hq h

theorem codeIntra_fits {pass : Option SecondPass} {mb : Nat} {q : Quantizer} (hq : q.InRange) {choice : IntraChoice} (hk : TypeKept pass mb choice) {o s : Raster} {column row : Nat} {m : MBModes} {r : Residue}
    (h : codeIntra pass mb q choice o s column row = some (m, r)) : SumsFit q m r := by
  obtain ⟨y, hy, h⟩ := bind_some h
  obtain ⟨pu, -, h⟩ := bind_some h
  obtain ⟨pv, -, h⟩ := bind_some h
  obtain ⟨u, hu, h⟩ := bind_some h
  obtain ⟨v, hv, h⟩ := bind_some h
  obtain ⟨m', -, h⟩ := bind_some h
  cases h
  obtain ⟨y1, y2⟩ := codeIntraLuma_fits hq hk hy
  exact sumsFit_of _ y1 y2 (codeChroma_small hq hu) (codeChroma_small hq hv)

theorem codeInter_fits {q : Quantizer} (hq : q.InRange) {rows : List (List UInt8)} {reference : Raster} {c : MBContext} {mode : Nat} {mv : MotionVector} {mb : Nat}
    {o s : Raster} {m : MBModes} {r : Residue} (h : codeInter q rows reference c mode mv mb o s = some (m, r)) : SumsFit q m r := by
  obtain ⟨prediction, -, h⟩ := bind_some h
  obtain ⟨py, -, h⟩ := bind_some h
  obtain ⟨y, hy, h⟩ := bind_some h
  obtain ⟨pu, -, h⟩ := bind_some h
  obtain ⟨pv, -, h⟩ := bind_some h
  obtain ⟨u, hu, h⟩ := bind_some h
  obtain ⟨v, hv, h⟩ := bind_some h
  cases h
  obtain ⟨y1, y2⟩ := codeWhole_fits hq hy
  exact sumsFit_of _ y1 y2 (codeChroma_small hq hu) (codeChroma_small hq hv)

theorem updateLuma_fits {mb : Nat} {q : Quantizer} (hq : q.InRange) {reference : Plane} {m : MBModes} {o p : Plane} {column row : Nat} {y : Block × (Fin 16 → Block)}
    (h : updateLuma mb q reference m o p column row = some y) : WalshFits (scaled q.y2Dc q.y2Ac y.1) ∧ ∀ k, SmallBlock q.yDc q.yAc (y.2 k) := by
  unfold updateLuma at h
  split at h
  · obtain ⟨p1, -, h⟩ := bind_some h
    obtain ⟨y', hy, h⟩ := bind_some h
    cases h
    exact ⟨walshFits_empty _ _, codePlain_small hy⟩
  · obtain ⟨p1, -, h⟩ := bind_some h
    exact codeWhole_fits hq h

theorem updateMacroblock_fits {mb : Nat} {q : Quantizer} (hq : q.InRange) {references : References} {m0 : MBModes} {o s : Raster} {column row : Nat} {m : MBModes}
    {r : Residue} (h : updateMacroblock mb q references m0 o s column row = some (m, r)) : SumsFit q m r := by
  unfold updateMacroblock at h
  split at h
  · obtain ⟨id, -, h⟩ := bind_some h
    obtain ⟨reference, -, h⟩ := bind_some h
    obtain ⟨y, hy, h⟩ := bind_some h
    obtain ⟨pu, -, h⟩ := bind_some h
    obtain ⟨pv, -, h⟩ := bind_some h
    obtain ⟨u, hu, h⟩ := bind_some h
    obtain ⟨v, hv, h⟩ := bind_some h
    cases h
    obtain ⟨y1, y2⟩ := updateLuma_fits hq hy
    exact sumsFit_of _ y1 y2 (codeChroma_small hq hu) (codeChroma_small hq hv)
  · obtain ⟨choice, -, h⟩ := bind_some h
    exact codeIntra_fits hq (.first _ _) h

/-- What has been coded has sums that fit. -/
def Coded.Fits (q : Quantizer) (s : Coded) : Prop := List.Forall₂ (SumsFit q) s.modes s.residues

theorem Coded.Fits.snoc {q : Quantizer} {s : Coded} (h : s.Fits q) {m : MBModes} {r : Residue} (hm : SumsFit q m r) (raster : Raster) :
    Coded.Fits q { raster, modes := s.modes ++ [m], residues := s.residues ++ [r] } :=
  List.rel_append h (List.Forall₂.cons hm .nil)

theorem keyPass_fits {pass : Option SecondPass} {trials : Trials} {q : Quantizer} (hq : q.InRange) {choices : Nat → IntraChoice} (hk : ∀ k, TypeKept pass k (choices k)) {o : Raster} {width height : Nat} {s : Raster} {c : Coded}
    (h : keyPass pass trials q choices o width height s = some c) : c.Fits q :=
  foldlM_inv (Coded.Fits q) (fun b a b' hb he => by
    obtain ⟨⟨m, r⟩, hm, he⟩ := bind_some he
    obtain ⟨raster, -, he⟩ := bind_some he
    cases he
    exact hb.snoc (codeIntra_fits hq (hk _) hm) _) _ (b := { raster := s, modes := [], residues := [] }) List.Forall₂.nil h

theorem interPass_fits {trials : Trials} {q : Quantizer} (hq : q.InRange) {choices : Nat → InterChoice} {references : References} {o : Raster} {width height : Nat}
    {s : Raster} {c : Coded} (h : interPass trials q choices references o width height s = some c) : c.Fits q := by
  obtain ⟨rows, -, h⟩ := bind_some h
  refine foldlM_inv (Coded.Fits q) (fun b a b' hb he => ?_) _ (b := { raster := s, modes := [], residues := [] }) List.Forall₂.nil h
  unfold interStep at he
  split at he
  · obtain ⟨⟨m, r⟩, hm, he⟩ := bind_some he
    obtain ⟨raster, -, he⟩ := bind_some he
    cases he
    exact hb.snoc (codeIntra_fits hq (.first _ _) hm) _
  · obtain ⟨⟨mode, mv⟩, -, he⟩ := bind_some he
    obtain ⟨⟨m, r⟩, hm, he⟩ := bind_some he
    obtain ⟨raster, -, he⟩ := bind_some he
    cases he
    exact hb.snoc (codeInter_fits hq hm) _

theorem updatePass_fits {late : Nat → Raster → Raster} {q : Quantizer} (hq : q.InRange) {references : References} {old : List MBModes} {o : Raster}
    {width height : Nat} {s : Raster} {c : Coded} (h : updatePass late q references old o width height s = some c) : c.Fits q :=
  foldlM_inv (Coded.Fits q) (fun b a b' hb he => by
    obtain ⟨m0, -, he⟩ := bind_some he
    obtain ⟨⟨m, r⟩, hm, he⟩ := bind_some he
    dsimp only at he
    split at he
    all_goals
      obtain ⟨raster, -, he⟩ := bind_some he
      cases he
      exact hb.snoc (updateMacroblock_fits hq hm) _) _ (b := { raster := s, modes := [], residues := [] }) List.Forall₂.nil h

/-- So a frame that holds what was coded. -/
theorem frameSumsFit_of {H : Type} {q : Quantizer} {modes : List MBModes} {residues : List Residue} (h : List.Forall₂ (SumsFit q) modes residues) {f : ParsedFrame H}
    (hm : f.frame.modes = modes) (hr : f.frame.residues = residues) {quantizer : Nat → Option Quantizer} (hq : ∀ id q', quantizer id = some q' → q' = q) :
    FrameSumsFit quantizer f := by
  intro k m r id q' h1 h2 _ h3
  obtain rfl := hq id q' h3
  rw [hm] at h1
  rw [hr] at h2
  obtain ⟨i1, e1⟩ := List.getElem?_eq_some_iff.1 h1
  obtain ⟨i2, e2⟩ := List.getElem?_eq_some_iff.1 h2
  have := h.get i1 i2
  simp only [List.get_eq_getElem] at this
  rw [e1, e2] at this
  exact this

/-! ### The encoder with vector instructions -/

theorem sseLumaDct_eq (o p : Plane) (column row : Nat) : sseLumaDct o p column row = lumaDct o p column row := by
  funext k
  unfold sseLumaDct lumaDct
  simp only [C85_subtractDct]

theorem sseChromaDct_eq (o p : Plane) (column row : Nat) : sseChromaDct o p column row = chromaDct o p column row := by
  funext k
  unfold sseChromaDct chromaDct
  simp only [C85_subtractDct]

theorem sseCodeChroma_eq (pass : Option SecondPass) (mb : Nat) (first : Fin 21) (q : Quantizer) (o p : Plane) (column row : Nat) :
    sseCodeChroma pass mb first q o p column row = codeChroma pass mb first q o p column row := by
  unfold sseCodeChroma codeChroma
  rw [sseChromaDct_eq]

theorem sseCodeWhole_eq (pass : Option SecondPass) (mb : Nat) (q : Quantizer) (o p : Plane) (column row : Nat) :
    sseCodeWhole pass mb q o p column row = codeWhole pass mb q o p column row := by
  unfold sseCodeWhole codeWhole
  refine bind_same (by rw [sseLumaDct_eq]) fun c e => ?_
  have hs : ∀ k i, |c k i| ≤ 2041 := fun k => lumaDct_small (allSome_iff.1 e k)
  rw [C85_wht fun k => hs k 0]

theorem sseCodeSub_eq (z : Leftovers) {pass : Option SecondPass} {mb : Nat} (hst : (pass.map (·.staleType mb)).getD .yWithoutY2 = .yWithoutY2) {q : Quantizer} (hq : q.InRange)
    (modes : Fin 16 → Fin 10) (o : Plane) (column row : Nat) : sseCodeSub z pass mb q modes o column row = codeSub pass mb q modes o column row := by
  funext s k
  unfold sseCodeSub codeSub
  refine bind_same (C85_intra _ _ (fun _ => 0) s.1 _ _ _).2.2 fun p _ => bind_same (by rw [sseLumaDct_eq]) fun c e => bind_same rfl fun b e' => bind_same ?_ fun _ _ => rfl
  rw [hst] at e'
  obtain ⟨s1, s2⟩ := compress_scaled (type := .yWithoutY2) (fun i => (lumaDct_small e i).trans (by norm_num))
    ⟨Nat.lt_of_lt_of_le (by decide) hq.yDc.1, Nat.lt_of_lt_of_le (by decide) hq.yAc.1⟩ (fun h => nomatch h) e'
  have s1 : scaled q.yDc q.yAc (codedBlock b) = dequantize q.yDc q.yAc b := s1
  have s3 : ∀ i, |dequantize q.yDc q.yAc b i| ≤ 2041 := fun i => by
    rw [← s1]
    exact (s2 i).1.trans (lumaDct_small e i)
  obtain ⟨h1, h2, h3⟩ := both_range (c := dequantize q.yDc q.yAc b) ((s3 0).trans (by norm_num)) (fun i _ => s3 i)
  unfold sseAddLuma addLuma Quantizer.sseDequantizeY Quantizer.dequantizeY
  rw [C85_dequantize]
  exact sseIdctAddTo_eq h1 h2 h3 _ _ _

theorem sseCodeIntra_eq (z : Leftovers) {pass : Option SecondPass} {mb : Nat} {q : Quantizer} (hq : q.InRange) {choice : IntraChoice} (hk : TypeKept pass mb choice) (o s : Raster)
    (column row : Nat) : sseCodeIntra z pass mb q choice o s column row = codeIntra pass mb q choice o s column row := by
  have ey : sseCodeIntraLuma z pass mb q choice o.y s.y column row = codeIntraLuma pass mb q choice o.y s.y column row := by
    unfold sseCodeIntraLuma codeIntraLuma
    by_cases hB : choice.yMode.val = B_PRED
    · rw [if_pos hB, if_pos hB, sseCodeSub_eq z (staleType_kept hk hB) hq]
    · rw [if_neg hB, if_neg hB, (C85_intra _ _ _ s.y _ _ _).1]
      simp only [sseCodeWhole_eq]
  unfold sseCodeIntra codeIntra
  rw [ey]
  simp only [(C85_intra _ _ (fun _ => 0) _ _ _ _).2.1, sseCodeChroma_eq]

theorem sseSiteStep_eq {s : Search} {p : Plane} (hs : s.Fits p) (base origin : MotionVector) (step : Nat) :
    sseSiteStep s base origin step = siteStep s base origin step := by
  funext best site
  unfold sseSiteStep siteStep
  dsimp only
  rw [(C85_search hs.full hs.rows (hs.clamped _)).1]

theorem sseDiamondLoop_eq {s : Search} {p : Plane} (hs : s.Fits p) (base : MotionVector) : ∀ (step : Nat) (origin : MotionVector) (first : Nat),
    sseDiamondLoop s base origin first step = diamondLoop s base origin first step := by
  intro step
  induction step using Nat.strong_induction_on with
  | _ step ih =>
    intro origin first
    unfold sseDiamondLoop diamondLoop
    split
    · rw [sseSiteStep_eq hs]
      congr 1
      funext best
      exact ih _ (by omega) _ _
    · rfl

theorem sseNewVectorLoop_eq {s : Search} {p : Plane} (hs : s.Fits p) (base : MotionVector) : ∀ (step : Nat) (mv : MotionVector),
    sseNewVectorLoop s base mv step = newVectorLoop s base mv step := by
  intro step
  induction step using Nat.strong_induction_on with
  | _ step ih =>
    intro mv
    unfold sseNewVectorLoop newVectorLoop sseDiamondSearch diamondSearch
    split
    · rw [sseDiamondLoop_eq hs]
      congr 1
      funext r
      split
      · rfl
      · split
        · next h => exact ih _ h _
        · rfl
    · rfl

theorem sseInterVector_eq {s : Search} {p : Plane} (hs : s.Fits p) (choice : InterChoice) :
    sseInterVector s.rows s.context choice s.place = interVector s.rows s.context choice s.place := by
  cases choice with
  | new cost =>
    have hs' : Search.Fits { rows := s.rows, context := s.context, cost, place := s.place } p :=
      ⟨hs.full, hs.rows, hs.width, hs.height, hs.column, hs.row, hs.left, hs.above⟩
    unfold sseInterVector interVector sseNewVector newVector
    simp only [sseNewVectorLoop_eq hs']
  | _ => rfl

/-- The vector that is chosen stays within the margin. -/
theorem interVector_margin {s : Search} {p : Plane} (hs : s.Fits p) {choice : InterChoice} (hf : choice.Fits s.context.width s.context.height) {mode : Nat}
    {mv : MotionVector} (h : interVector s.rows s.context choice s.place = some (mode, mv)) : InMargin p mv s.place.1 s.place.2 := by
  cases choice with
  | intra i => exact nomatch h
  | zero => cases h; exact zero_inMargin hs
  | nearest => obtain ⟨sc, -, h⟩ := bind_some h; cases h; exact hs.clamped _
  | near => obtain ⟨sc, -, h⟩ := bind_some h; cases h; exact hs.clamped _
  | new cost =>
    have hs' : Search.Fits { rows := s.rows, context := s.context, cost, place := s.place } p :=
      ⟨hs.full, hs.rows, hs.width, hs.height, hs.column, hs.row, hs.left, hs.above⟩
    obtain ⟨sc, -, h⟩ := bind_some h
    obtain ⟨d, hd, h⟩ := bind_some h
    cases h
    obtain ⟨d', h1, h2, h3, hx, hy⟩ := C66_search hs' (clampMv (sc.mvs 0) s.context)
    rw [hd] at h1
    cases h1
    rw [abs_le] at hx hy
    have h := clampMv_bounds (sc.mvs 0) s.context hs.column hs.row
    have h1 := hs.column; have h2 := hs.row; have h3 := hs.width; have h4 := hs.height; have h5 := hs.left; have h6 := hs.above
    obtain ⟨hw, hh⟩ : s.context.width ≤ 248 ∧ s.context.height ≤ 248 := hf
    generalize clampMv (sc.mvs 0) s.context = m at *
    generalize s.context.column = column at *
    generalize s.context.row = row at *
    have e1 : (d.add m).x = d.x + m.x := toInt16_id (by omega)
    have e2 : (d.add m).y = d.y + m.y := toInt16_id (by omega)
    exact ⟨by rw [e1]; omega, by rw [e1]; omega, by rw [e2]; omega, by rw [e2]; omega⟩

theorem sseCodeInter_eq {q : Quantizer} {rows : List (List UInt8)} {reference : Raster} {dw dh w h dw' dh' : Nat} (href : reference.Sized dw dh w h) {s : Raster}
    (hs : s.Sized dw' dh' w h) (hrows : safeRaster reference.y = some rows) {c : MBContext} {mv : MotionVector} (hm : InMargin reference.y mv c.column c.row)
    (mode mb : Nat) (o : Raster) : sseCodeInter q rows reference c mode mv mb o s = codeInter q rows reference c mode mv mb o s := by
  unfold sseCodeInter codeInter
  rw [(C85_search href.y.full hrows hm).1]
  simp only [sseCodeWhole_eq, sseCodeChroma_eq, sseInterPredictTo_eq href.u.full (hs.u.width.trans href.u.width.symm) (Or.inl rfl),
    sseInterPredictTo_eq href.v.full (hs.v.width.trans href.v.width.symm) (Or.inl rfl)]

theorem codeIntra_notSplit {pass : Option SecondPass} {mb : Nat} {q : Quantizer} {choice : IntraChoice} {o s : Raster} {column row : Nat} {m : MBModes} {r : Residue}
    (h : codeIntra pass mb q choice o s column row = some (m, r)) : m.yMode ≠ SPLITMV := by
  rw [(codeIntra_keeps h).1]
  have h1 := choice.yMode.2
  intro h2
  rw [h2] at h1
  exact absurd h1 (by decide)

/-- A loop over the macroblocks whose steps agree where an invariant holds. -/
theorem range_congr {n : Nat} (Inv : Nat → Coded → Prop) {f g : Coded → Nat → Option Coded} (h : ∀ k s, k < n → Inv k s → f s k = g s k)
    (hg : ∀ k s, k < n → Inv k s → ∃ t, g s k = some t ∧ Inv (k + 1) t) {s : Coded} (hs : Inv 0 s) : (List.range n).foldlM f s = (List.range n).foldlM g s := by
  have key : ∀ k, k ≤ n → (List.range k).foldlM f s = (List.range k).foldlM g s ∧ ∃ t, (List.range k).foldlM g s = some t ∧ Inv k t := by
    intro k
    induction k with
    | zero => exact fun _ => ⟨rfl, s, rfl, hs⟩
    | succ k ih =>
      intro hk
      obtain ⟨e, t, h1, h2⟩ := ih (by omega)
      obtain ⟨u, h3, h4⟩ := hg k t (by omega) h2
      have hf : f t k = some u := (h k t (by omega) h2).trans h3
      rw [List.range_succ, List.foldlM_append, List.foldlM_append, e, h1]
      simp only [Option.bind_eq_bind, Option.bind_some, List.foldlM_cons, List.foldlM_nil, hf, h3]
      exact ⟨trivial, u, rfl, h4⟩
  exact (key n (Nat.le_refl n)).1

theorem sseKeyStep_eq (z : Leftovers) {pass : Option SecondPass} (trials : Trials) {q : Quantizer} (hq : q.InRange) {choices : Nat → IntraChoice}
    (hk : ∀ k, TypeKept pass k (choices k)) (o : Raster) (w : Nat) : sseKeyStep z pass trials q choices o w = keyStep pass trials q choices o w := by
  funext s k
  unfold sseKeyStep keyStep
  refine bind_same (sseCodeIntra_eq z hq (hk k) ..) fun x e => ?_
  obtain ⟨m, r⟩ := x
  exact bind_same (sseReconstructIntra_eq z (codeIntra_fits hq (hk k) e) (codeIntra_notSplit e) _) fun _ _ => rfl

theorem sseKeyPass_eq (z : Leftovers) {pass : Option SecondPass} (trials : Trials) {q : Quantizer} (hq : q.InRange) {choices : Nat → IntraChoice}
    (hk : ∀ k, TypeKept pass k (choices k)) (o : Raster) (width height : Nat) (s : Raster) :
    sseKeyPass z pass trials q choices o width height s = keyPass pass trials q choices o width height s := by
  unfold sseKeyPass keyPass
  rw [sseKeyStep_eq z trials hq hk]

/-- Both passes over a key frame. -/
theorem sseKeyPasses_eq (z : Leftovers) {d : KeyChoices} (hd : d.TypesKept) {q : Quantizer} (hq : q.InRange) (u : TokenProbUpdate) (o : Raster) (width height : Nat) (s : Raster) :
    sseKeyPasses z d q u o width height s = keyPasses d q u o width height s := by
  unfold sseKeyPasses keyPasses
  refine bind_same (sseKeyPass_eq z _ hq (fun k => .first _ _) _ _ _ _) fun one _ => bind_same rfl fun u' _ => ?_
  cases h2 : d.second with
  | none => rfl
  | some e =>
    dsimp only
    exact bind_same (sseKeyPass_eq z _ hq (fun k => typeKept_second hd h2 k) _ _ _ _) fun _ _ => rfl

theorem keyPasses_fits {d : KeyChoices} (hd : d.TypesKept) {q : Quantizer} (hq : q.InRange) {u v : TokenProbUpdate} {o : Raster} {width height : Nat} {s : Raster} {c : Coded}
    (h : keyPasses d q u o width height s = some (c, v)) : c.Fits q := by
  obtain ⟨one, h1, h⟩ := bind_some h
  obtain ⟨u', -, h⟩ := bind_some h
  cases h2 : d.second with
  | none =>
    rw [h2] at h
    cases h
    exact keyPass_fits hq (fun k => .first _ _) h1
  | some e =>
    rw [h2] at h
    dsimp only at h
    obtain ⟨two, h3, h⟩ := bind_some h
    obtain ⟨u'', -, h⟩ := bind_some h
    cases h
    exact keyPass_fits hq (fun k => typeKept_second hd h2 k) h3

theorem interStep_inter {trials : Trials} {q : Quantizer} {choices : Nat → InterChoice} {rows : List (List UInt8)} {references : References} {o : Raster} {w h : Nat}
    {s : Coded} {k : Nat} (hn : ∀ i, choices k ≠ .intra i) : interStep trials q choices rows references o w h s k = (do
        let x ← interVector rows (gridContext w h s.modes k) (choices k)
        let y ← codeInter q rows references.last (gridContext w h s.modes k) x.1 x.2 k o (trials.early k s.raster)
        let raster ← reconstructInter q references y.1 y.2 (k % w) (k / w) (trials.late k s.raster)
        pure { raster, modes := s.modes ++ [y.1], residues := s.residues ++ [y.2] }) := by
  unfold interStep
  cases he : choices k with
  | intra i => exact absurd he (hn i)
  | _ => rfl

theorem sseInterStep_inter {z : Leftovers} {trials : Trials} {q : Quantizer} {choices : Nat → InterChoice} {rows : List (List UInt8)} {references : References} {o : Raster}
    {w h : Nat} {s : Coded} {k : Nat} (hn : ∀ i, choices k ≠ .intra i) : sseInterStep z trials q choices rows references o w h s k = (do
        let x ← sseInterVector rows (gridContext w h s.modes k) (choices k)
        let y ← sseCodeInter q rows references.last (gridContext w h s.modes k) x.1 x.2 k o (trials.early k s.raster)
        let raster ← sseReconstructInter q references y.1 y.2 (k % w) (k / w) (trials.late k s.raster)
        pure { raster, modes := s.modes ++ [y.1], residues := s.residues ++ [y.2] }) := by
  unfold sseInterStep
  cases he : choices k with
  | intra i => exact absurd he (hn i)
  | _ => rfl

theorem sseInterStep_eq (z : Leftovers) {trials : Trials} {q : Quantizer} (hq : q.InRange) {choices : Nat → InterChoice} {dw dh w h : Nat}
    (hch : ∀ k, (choices k).Fits w h) (hT : trials.Local dw dh w h) {o : Raster} (ho : o.Sized dw dh w h) {references : References}
    (href : references.last.Sized dw dh w h) {rows : List (List UInt8)} (hrows : safeRaster references.last.y = some rows) {k : Nat} {s : Coded} (hk : k < w * h)
    (hs : s.raster.Sized dw dh w h) : sseInterStep z trials q choices rows references o w h s k = interStep trials q choices rows references o w h s k := by
  have hw := pos_of_lt_mul hk
  have hc := Nat.mod_lt k hw
  have hr := div_lt_of hk
  by_cases hi : ∃ i, choices k = .intra i
  · obtain ⟨i, hi⟩ := hi
    unfold sseInterStep interStep
    rw [hi]
    dsimp only
    refine bind_same (sseCodeIntra_eq z hq (.first _ _) ..) fun x e => ?_
    obtain ⟨m, r⟩ := x
    exact bind_same (sseReconstructIntra_eq z (codeIntra_fits hq (.first _ _) e) (codeIntra_notSplit e) _) fun _ _ => rfl
  · have hn : ∀ i, choices k ≠ .intra i := fun i e => hi ⟨i, e⟩
    rw [sseInterStep_inter hn, interStep_inter hn]
    have hfits : Search.Fits { rows, context := gridContext w h s.modes k, cost := fun _ _ => 0 } references.last.y :=
      .own href.y.full hrows href.y.width href.y.height hc hr
    obtain ⟨mode, mv, v1, v2⟩ := interVector_ok hfits hn (hch k)
    have hmargin := interVector_margin hfits (hch k) v1
    refine bind_same (sseInterVector_eq hfits (choices k)) fun x e => ?_
    obtain rfl : x = (mode, mv) := Option.some.inj (e.symm.trans v1)
    obtain ⟨m, r, sc, e1, e2, e3, e4, m3, m4, m5, m6⟩ := codeInter_ok k hq ho (hT.early k _ hs) href (c := gridContext w h s.modes k) hc hr v2 emptyInterHeader
    refine bind_same (sseCodeInter_eq href (hT.early k _ hs) hrows hmargin _ _ _) fun y e => ?_
    obtain rfl : y = (m, r) := Option.some.inj (e.symm.trans e1)
    have hlast : reference references m = references.last := by
      unfold reference; rw [e4]; rfl
    exact bind_same (sseReconstructInter_eq (hT.late k _ hs).1 (by rw [hlast]; exact href) (codeInter_fits hq e1) e3 fun h => absurd h m6) fun _ _ => rfl

theorem sseInterPass_eq (z : Leftovers) {trials : Trials} {q : Quantizer} (hq : q.InRange) {choices : Nat → InterChoice} {width height : Nat}
    (hw : 0 < width ∧ width < 2 ^ 14) (hh : 0 < height ∧ height < 2 ^ 14)
    (hch : ∀ k cost, choices k = .new cost → (width + 15) / 16 ≤ 248 ∧ (height + 15) / 16 ≤ 248) (hT : trials.Confined width height) {o s : Raster}
    (ho : o.Ok width height) (hs : s.Ok width height) {references : References} (hrefs : references.Ok width height) {hd : InterFrameHeader}
    (h1 : hd.updateSegmentation = none) (h2 : hd.probSkipFalse.isSome = true) :
    sseInterPass z trials q choices references o width height s = interPass trials q choices references o width height s := by
  have href := hrefs.last.sized hw hh
  obtain ⟨rows, hrows, -⟩ := C35_padded href.y.full
  have hfit : ∀ k, (choices k).Fits ((width + 15) / 16) ((height + 15) / 16) := fun k => by
    cases hc : choices k with
    | new cost => exact hch k cost hc
    | _ => trivial
  unfold sseInterPass interPass macroblockDimension
  refine bind_same rfl fun rows' e => ?_
  obtain rfl : rows' = rows := Option.some.inj (e.symm.trans hrows)
  dsimp only
  refine range_congr (fun k s => CodedUpTo width height ((width + 15) / 16) ((height + 15) / 16) q (reference references)
      (fun l j m => m.InterFrameOk hd (gridContext ((width + 15) / 16) ((height + 15) / 16) l j) ∧ m.yMode ≠ SPLITMV) k s) (fun k s hk hs => ?_)
    (fun k s hk hs => interStep_ok hq hfit (hT.local hw hh) (ho.sized hw hh) href hrows h1 h2 hk hs) (empty_coded q _ _ (hs.sized hw hh))
  exact sseInterStep_eq z hq hfit (hT.local hw hh) (ho.sized hw hh) href hrows hk hs.sized

end Alfalfa
