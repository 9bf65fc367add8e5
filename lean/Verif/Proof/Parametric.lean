import Verif.Proof.Frame
import Verif.Model.DecoderState

/-! Parsers use a decoder only to read bits: two decoders that give the same bits give the same results. -/

namespace Alfalfa

/-- A relation between decoders that give the same bits, and are in the relation again afterwards. -/
def Bisim (R : BoolDecoder → BoolDecoder → Prop) : Prop := ∀ d d' p, R d d' → (d.get p).1 = (d'.get p).1 ∧ R (d.get p).2 (d'.get p).2

/-- Equal results with related decoders. -/
def Follows {α : Type} (R : BoolDecoder → BoolDecoder → Prop) (x y : Option (α × BoolDecoder)) : Prop :=
  (x = none ∧ y = none) ∨ ∃ a d d', x = some (a, d) ∧ y = some (a, d') ∧ R d d'

/-- The parser only reads bits. -/
def Parametric {α : Type} (p : Parser α) : Prop := ∀ R, Bisim R → ∀ d d', R d d' → Follows R (p d) (p d')

theorem Parametric.pure {α : Type} (x : α) : Parametric (Pure.pure x) := fun _ _ d d' h => .inr ⟨x, d, d', rfl, rfl, h⟩

theorem Parametric.failure {α : Type} : Parametric (failure : Parser α) := fun _ _ _ _ _ => .inl ⟨rfl, rfl⟩

theorem Parametric.none {α : Type} : Parametric (fun _ => .none : Parser α) := fun _ _ _ _ _ => .inl ⟨rfl, rfl⟩

theorem Parametric.lift {α : Type} (x : Option α) : Parametric (liftM x : Parser α) := by
  intro R _ d d' h
  cases x with
  | none => exact .inl ⟨rfl, rfl⟩
  | some a => exact .inr ⟨a, d, d', rfl, rfl, h⟩

theorem Parametric.bind {α β : Type} {p : Parser α} {f : α → Parser β} (hp : Parametric p) (hf : ∀ x, Parametric (f x)) : Parametric (p >>= f) := by
  intro R hR d d' h
  rcases hp R hR d d' h with ⟨h1, h2⟩ | ⟨a, e, e', h1, h2, h3⟩
  · refine .inl ⟨?_, ?_⟩
    · show (p d >>= fun x => f x.1 x.2) = _
      rw [h1]; rfl
    · show (p d' >>= fun x => f x.1 x.2) = _
      rw [h2]; rfl
  · have g1 : (p >>= f) d = f a e := by
      show (p d >>= fun x => f x.1 x.2) = _
      rw [h1]; rfl
    have g2 : (p >>= f) d' = f a e' := by
      show (p d' >>= fun x => f x.1 x.2) = _
      rw [h2]; rfl
    rw [g1, g2]
    exact hf a R hR e e' h3

theorem Parametric.map {α β : Type} {p : Parser α} {f : α → β} (hp : Parametric p) : Parametric (f <$> p) := by
  intro R hR d d' h
  rcases hp R hR d d' h with ⟨h1, h2⟩ | ⟨a, e, e', h1, h2, h3⟩
  · refine .inl ⟨?_, ?_⟩
    · show (p d >>= fun x => _) = _
      rw [h1]; rfl
    · show (p d' >>= fun x => _) = _
      rw [h2]; rfl
  · refine .inr ⟨f a, e, e', ?_, ?_, h3⟩
    · show (p d >>= fun x => _) = _
      rw [h1]; rfl
    · show (p d' >>= fun x => _) = _
      rw [h2]; rfl

theorem Parametric.ite {α : Type} {c : Prop} [Decidable c] {p q : Parser α} (hp : Parametric p) (hq : Parametric q) : Parametric (if c then p else q) := by
  split
  · exact hp
  · exact hq

theorem Parametric.getBit (p : Prob) : Parametric (getBit p) := by
  intro R hR d d' h
  obtain ⟨h1, h2⟩ := hR d d' p h
  refine .inr ⟨(d.get p).1, (d.get p).2, (d'.get p).2, rfl, ?_, h2⟩
  rw [h1]; rfl

theorem Parametric.optional {α : Type} {flag : Bool} {p : Parser α} (h : Parametric p) : Parametric (parseOptional flag p) :=
  .ite (.map h) (.pure _)

theorem Parametric.flagged {α : Type} {q : Prob} {p : Parser α} (h : Parametric p) : Parametric (parseFlagged q p) :=
  .bind (.getBit _) fun _ => .optional h

theorem Parametric.unsigned : ∀ w, Parametric (parseUnsigned w)
  | 0 => .pure _
  | w + 1 => .bind (.getBit _) fun _ => .bind (Parametric.unsigned w) fun _ => .pure _

theorem Parametric.signed (w : Nat) : Parametric (parseSigned w) := .bind (.unsigned w) fun _ => .bind (.getBit _) fun _ => .pure _

theorem Parametric.fin {α : Type} : ∀ {n : Nat} {p : Fin n → Parser α}, (∀ i, Parametric (p i)) → Parametric (parseFin n p)
  | 0, _, _ => .pure _
  | _ + 1, _, h => .bind (h 0) fun _ => .bind (Parametric.fin fun i => h i.succ) fun _ => .pure _

theorem Parametric.treeFrom (nodes : List Int) (probs : List Prob) : ∀ fuel i, Parametric (readTreeFrom nodes probs fuel i)
  | 0, _ => .none
  | fuel + 1, _ => .bind (.lift _) fun _ => .bind (.getBit _) fun _ => .bind (.lift _) fun _ => .ite (Parametric.treeFrom nodes probs fuel _) (.pure _)

theorem Parametric.tree (nodes : List Int) (probs : List Prob) : Parametric (readTree nodes probs) := .treeFrom nodes probs _ _

/-! ### Headers -/

theorem Parametric.quantIndices : Parametric parseQuantIndices :=
  .bind (.unsigned _) fun _ => .bind (.flagged (.signed _)) fun _ => .bind (.flagged (.signed _)) fun _ => .bind (.flagged (.signed _)) fun _ =>
    .bind (.flagged (.signed _)) fun _ => .bind (.flagged (.signed _)) fun _ => .pure _

theorem Parametric.deltaUpdate : Parametric parseModeRefLFDeltaUpdate :=
  .bind (.fin fun _ => .flagged (.signed _)) fun _ => .bind (.fin fun _ => .flagged (.signed _)) fun _ => .pure _

theorem Parametric.featureData : Parametric parseSegmentFeatureData :=
  .bind (.getBit _) fun _ => .bind (.fin fun _ => .flagged (.signed _)) fun _ => .bind (.fin fun _ => .flagged (.signed _)) fun _ => .pure _

theorem Parametric.updateSegmentation : Parametric parseUpdateSegmentation :=
  .bind (.getBit _) fun _ => .bind (.flagged .featureData) fun _ => .bind (.optional (.fin fun _ => .flagged (.unsigned _))) fun _ => .pure _

theorem Parametric.tokenProbUpdate : Parametric parseTokenProbUpdate :=
  .fin fun _ => .fin fun _ => .fin fun _ => .fin fun _ => .flagged (.unsigned _)

theorem Parametric.mvProbUpdate : Parametric parseMVProbUpdate := .fin fun _ => .fin fun _ => .flagged (.unsigned _)

theorem Parametric.keyHeader : Parametric parseKeyFrameHeader := by
  refine .bind ?_ fun _ => .ite .failure (.ite .failure (.pure _))
  exact .bind (.getBit _) fun _ => .bind (.getBit _) fun _ => .bind (.flagged .updateSegmentation) fun _ => .bind (.getBit _) fun _ => .bind (.unsigned _) fun _ =>
    .bind (.unsigned _) fun _ => .bind (.flagged (.flagged .deltaUpdate)) fun _ => .bind (.unsigned _) fun _ => .bind .quantIndices fun _ => .bind (.getBit _) fun _ =>
    .bind .tokenProbUpdate fun _ => .bind (.flagged (.unsigned _)) fun _ => .pure _

theorem Parametric.interHeader : Parametric parseInterFrameHeader := by
  refine .bind ?_ fun _ => .ite .failure (.pure _)
  exact .bind (.flagged .updateSegmentation) fun _ => .bind (.getBit _) fun _ => .bind (.unsigned _) fun _ => .bind (.unsigned _) fun _ =>
    .bind (.flagged (.flagged .deltaUpdate)) fun _ => .bind (.unsigned _) fun _ => .bind .quantIndices fun _ => .bind (.getBit _) fun _ => .bind (.getBit _) fun _ =>
    .bind (.optional (.unsigned _)) fun _ => .bind (.optional (.unsigned _)) fun _ => .bind (.getBit _) fun _ => .bind (.getBit _) fun _ => .bind (.getBit _) fun _ =>
    .bind (.getBit _) fun _ => .bind .tokenProbUpdate fun _ => .bind (.flagged (.unsigned _)) fun _ => .bind (.unsigned _) fun _ => .bind (.unsigned _) fun _ =>
    .bind (.unsigned _) fun _ => .bind (.flagged (.fin fun _ => .unsigned _)) fun _ => .bind (.flagged (.fin fun _ => .unsigned _)) fun _ =>
    .bind .mvProbUpdate fun _ => .pure _

/-! ### Macroblocks -/

theorem Parametric.fillGroups {T : Type} {step : (Fin 16 → T) → Fin 16 → Parser T} (h : ∀ c i, Parametric (step c i)) :
    ∀ (l : List (List (Fin 16))) (cells : Fin 16 → T), Parametric (fillGroups step l cells)
  | [], _ => .pure _
  | [] :: _, _ => .failure
  | (i :: _) :: rest, cells => .bind (h cells i) fun _ => Parametric.fillGroups h rest _

theorem Parametric.segmentId (u : Option UpdateSegmentation) : Parametric (parseSegmentId u) := .optional (.tree _ _)

theorem Parametric.skip (p : Option Nat) : Parametric (parseSkip p) := .optional (.getBit _)

theorem Parametric.keyBModes (above left : Option (Fin 16 → Nat)) (yMode : Nat) : Parametric (readKeyBModes above left yMode) :=
  .ite (.fillGroups (fun _ _ => .bind (.lift _) fun _ => .tree _ _) _ _) (.bind (.lift _) fun _ => .pure _)

theorem Parametric.keyMB (h : KeyFrameHeader) (c : MBContext) : Parametric (parseKeyMB h c) :=
  .bind (.segmentId _) fun _ => .bind (.skip _) fun _ => .bind (.tree _ _) fun _ => .bind (.keyBModes _ _ _) fun _ => .bind (.tree _ _) fun _ => .pure _

theorem Parametric.mvBits (p : Fin 19 → Prob) : ∀ l x, Parametric (readMvBits p l x)
  | [], _ => .pure _
  | _ :: rest, _ => .bind (.lift _) fun _ => .bind (.getBit _) fun _ => Parametric.mvBits p rest _

theorem Parametric.mvMagnitude (p : Fin 19 → Prob) : Parametric (readMvMagnitude p) :=
  .bind (.getBit _) fun _ => .ite (.bind (.mvBits _ _ _) fun _ => .ite (.pure _) (.bind (.getBit _) fun _ => .pure _)) (.tree _ _)

theorem Parametric.mvComponent (p : Fin 19 → Prob) : Parametric (readMvComponent p) :=
  .bind (.mvMagnitude p) fun _ => .ite (.pure _) (.bind (.getBit _) fun _ => .pure _)

theorem Parametric.mv (p : Fin 2 → Fin 19 → Prob) : Parametric (readMv p) := .bind (.mvComponent _) fun _ => .bind (.mvComponent _) fun _ => .pure _

theorem Parametric.subMv (above left : Option (Fin 16 → MotionVector)) (best : MotionVector) (p : Fin 2 → Fin 19 → Prob) (cells : Fin 16 → Nat × MotionVector) (i : Fin 16) :
    Parametric (readSubMv above left best p cells i) :=
  .bind (.lift _) fun _ => .bind (.tree _ _) fun _ => .ite (.pure _) (.ite (.pure _) (.ite (.pure _) (.ite (.bind (.mv _) fun _ => .pure _) .failure)))

theorem Parametric.interVectors (t : ProbabilityTables) (c : MBContext) (s : Scorer) (yMode : Nat) : Parametric (readInterVectors t c s yMode) :=
  .ite (.pure _) (.ite (.pure _) (.ite (.pure _) (.ite (.bind (.mv _) fun _ => .pure _)
    (.ite (.bind (.tree _ _) fun _ => .bind (.lift _) fun _ => .bind (.fillGroups (fun _ _ => .subMv _ _ _ _ _ _) _ _) fun _ => .pure _) .failure))))

theorem Parametric.intraBModes (yMode : Nat) : Parametric (readIntraBModes yMode) := .ite (.fin fun _ => .tree _ _) (.bind (.lift _) fun _ => .pure _)

theorem Parametric.modes (t : ProbabilityTables) (c : MBContext) (m : MBModes) : Parametric (readModes t c m) := by
  refine .ite ?_ ?_
  · refine .bind ?_ fun _ => .pure _
    exact .bind (.lift _) fun _ => .bind (.lift _) fun _ => .bind (.tree _ _) fun _ => .bind (.interVectors _ _ _ _) fun _ => .pure _
  · exact .bind (.tree _ _) fun _ => .bind (.intraBModes _) fun _ => .bind (.tree _ _) fun _ => .pure _

theorem Parametric.interMB (h : InterFrameHeader) (t : ProbabilityTables) (c : MBContext) : Parametric (parseInterMB h t c) :=
  .bind (.segmentId _) fun _ => .bind (.skip _) fun _ => .bind (.getBit _) fun _ => .bind (.optional (.getBit _)) fun _ => .bind (.optional (.getBit _)) fun _ => .modes _ _ _

theorem Parametric.mbs {p : MBContext → Parser MBModes} (h : ∀ c, Parametric (p c)) (w ht : Nat) : ∀ n cells, Parametric (parseMBs p w ht n cells)
  | 0, _ => .pure _
  | n + 1, _ => .bind (h _) fun _ => Parametric.mbs h w ht n _

/-! ### Coefficients -/

theorem Parametric.extra : ∀ ps n, Parametric (readExtra ps n)
  | [], _ => .pure _
  | _ :: ps, _ => .bind (.getBit _) fun _ => Parametric.extra ps _

theorem Parametric.token (t : Nat × List Prob) : Parametric (tokenDecode t) := .bind (.extra _ _) fun _ => .pure _

theorem Parametric.magnitude (prob : Fin 11 → Prob) : Parametric (readMagnitude prob) := by
  unfold readMagnitude
  refine .bind (.getBit _) fun _ => .ite (.pure _) (.bind (.getBit _) fun _ => .ite (.bind (.getBit _) fun _ => .ite (.pure _) (.bind (.getBit _) fun _ => .ite (.pure _) (.pure _)))
    (.bind (.getBit _) fun _ => .ite (.bind (.getBit _) fun _ => .ite (.bind (.getBit _) fun _ => .pure _) (.bind (.token _) fun _ => .pure _))
      (.bind (.getBit _) fun _ => .ite (.bind (.getBit _) fun _ => .ite (.bind (.token _) fun _ => .pure _) (.bind (.token _) fun _ => .pure _))
        (.bind (.getBit _) fun _ => .ite (.bind (.token _) fun _ => .pure _) (.bind (.token _) fun _ => .pure _)))))

theorem Parametric.coeffs (probs : Fin 8 → Fin 3 → Fin 11 → Prob) : ∀ l z c b, Parametric (readCoeffs probs l z c b)
  | [], _, _, _ => .pure _
  | _ :: rest, z, _, _ => .bind (.ite (.pure _) (.getBit _)) fun _ => .ite (.pure _) (.bind (.getBit _) fun _ =>
      .ite (Parametric.coeffs probs rest _ _ _) (.bind (.magnitude _) fun _ => .bind (.getBit _) fun _ => Parametric.coeffs probs rest _ _ _))

theorem Parametric.tokens (probs : CoeffProbs) (type : BlockType) (above left : Option Bool) (b : Block) : Parametric (parseTokens probs type above left b) := .coeffs _ _ _ _ _

theorem Parametric.chroma (probs : CoeffProbs) (above left : Option (Fin 4 → Block)) : Parametric (parseChroma probs above left) :=
  .bind (.tokens _ _ _ _ _) fun _ => .bind (.tokens _ _ _ _ _) fun _ => .bind (.tokens _ _ _ _ _) fun _ => .bind (.tokens _ _ _ _ _) fun _ => .pure _

theorem Parametric.residue (probs : CoeffProbs) (m : MBModes) (a l : Option Bool) (above left : Option Residue) : Parametric (parseResidue probs m a l above left) :=
  .ite (.pure _) (.bind (.ite (.tokens _ _ _ _ _) (.pure _)) fun _ => .bind (.fillGroups (fun _ _ => .tokens _ _ _ _ _) _ _) fun _ => .bind (.chroma _ _ _) fun _ =>
    .bind (.chroma _ _ _) fun _ => .pure _)

theorem parseResidues_follows {R : BoolDecoder → BoolDecoder → Prop} (hR : Bisim R) (probs : CoeffProbs) (w : Nat) :
    ∀ (l : List (MBModes × Option Nat × Option Nat)) (cells : List Residue) (ds ds' : List BoolDecoder), List.Forall₂ R ds ds' →
      parseResidues probs w l cells ds = parseResidues probs w l cells ds'
  | [], _, _, _, _ => rfl
  | (m, la, ll) :: rest, cells, ds, ds', h => by
    unfold parseResidues
    have hl := h.length_eq
    simp only [hl]
    generalize cells.length / w % ds'.length = i
    by_cases hi : i < ds'.length
    · have hi' : i < ds.length := by omega
      rw [List.getElem?_eq_getElem hi, List.getElem?_eq_getElem hi']
      have hr : R ds[i] ds'[i] := (List.forall₂_iff_get.1 h).2 i hi' hi
      simp only [Option.bind_eq_bind, Option.bind_some]
      rcases Parametric.residue probs m (linkFlag cells la) (linkFlag cells ll) (gridAbove w cells cells.length) (gridLeft w cells cells.length) R hR _ _ hr with
        ⟨h1, h2⟩ | ⟨a, e, e', h1, h2, h3⟩
      · rw [h1, h2]; rfl
      · rw [h1, h2]
        simp only [Option.bind_some]
        refine parseResidues_follows hR probs w rest _ _ _ ?_
        rw [List.forall₂_iff_get]
        refine ⟨by simp [hl], fun j hj hj' => ?_⟩
        simp only [List.get_eq_getElem, List.getElem_set]
        split
        · exact h3
        · exact (List.forall₂_iff_get.1 h).2 j (by simpa using hj) (by simpa using hj')
    · rw [List.getElem?_eq_none (by omega), List.getElem?_eq_none (by omega)]
      rfl

/-! ### The two relations -/

theorem bisim_same : Bisim SameReader := fun d d' p h => by
  obtain ⟨h1, h2⟩ := sameReader_get h p
  exact ⟨h1.symm, h2⟩

theorem bisim_pad : Bisim PadRel := fun d d' p h => by
  obtain ⟨h1, h2⟩ := padRel_get h p
  exact ⟨h1.symm, h2⟩

end Alfalfa
