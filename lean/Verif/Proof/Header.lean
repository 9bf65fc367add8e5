import Verif.Proof.Parser
import Verif.Spec.Header

namespace Alfalfa

theorem parses_fSigned {w : Nat} {x : Option Int} (h : IfPresent (FitsSigned w) x) (prob : Prob) :
    Parses (parseFlagged prob (parseSigned w)) (encFlagged prob (encSigned w) x) x :=
  Parses.flagged fun y hy => Parses.signed (h y hy)

theorem parses_fUnsigned {w : Nat} {x : Option Nat} (h : IfPresent (· < 2 ^ w) x) (prob : Prob) :
    Parses (parseFlagged prob (parseUnsigned w)) (encFlagged prob (encUnsigned w) x) x :=
  Parses.flagged fun y hy => Parses.unsigned (h y hy)

theorem parses_quantIndices {h : QuantIndices} (hr : h.InRange) : Parses parseQuantIndices (encQuantIndices h) h :=
  Parses.bind (Parses.unsigned hr.yAcQi) <| Parses.bind (parses_fSigned hr.yDc _) <| Parses.bind (parses_fSigned hr.y2Dc _) <|
  Parses.bind (parses_fSigned hr.y2Ac _) <| Parses.bind (parses_fSigned hr.uvDc _) <|
  Parses.bind (parses_fSigned hr.uvAc _) <| Parses.pure _

theorem parses_modeRef {h : ModeRefLFDeltaUpdate} (hr : h.InRange) :
    Parses parseModeRefLFDeltaUpdate (encModeRefLFDeltaUpdate h) h :=
  Parses.bind (Parses.fin fun i => parses_fSigned (hr.refUpdate i) _) <|
  Parses.bind (Parses.fin fun i => parses_fSigned (hr.modeUpdate i) _) <| Parses.pure _

theorem parses_segFeature {h : SegmentFeatureData} (hr : h.InRange) :
    Parses parseSegmentFeatureData (encSegmentFeatureData h) h :=
  Parses.bind (Parses.getBit _ _) <|
  Parses.bind (Parses.fin fun i => parses_fSigned (hr.quantizerUpdate i) _) <|
  Parses.bind (Parses.fin fun i => parses_fSigned (hr.loopFilterUpdate i) _) <| Parses.pure _

theorem parses_updateSeg {h : UpdateSegmentation} (hr : h.InRange) :
    Parses parseUpdateSegmentation (encUpdateSegmentation h) h :=
  Parses.bind (Parses.getBit _ _) <|
  Parses.bind (Parses.flagged fun y hy => parses_segFeature (hr.segmentFeatureData y hy)) <|
  Parses.bind (Parses.optional hr.map fun m hm => Parses.fin fun i => parses_fUnsigned (hr.mapRange m hm i) _) <| Parses.pure _

theorem parses_token {u : TokenProbUpdate} (h : ∀ i j k l, IfPresent (· < 256) (u i j k l)) :
    Parses parseTokenProbUpdate (encTokenProbUpdate u) u :=
  Parses.fin fun i => Parses.fin fun j => Parses.fin fun k => Parses.fin fun l => parses_fUnsigned (h i j k l) _

theorem parses_mvProb {u : MVProbUpdate} (h : ∀ i j, IfPresent (· < 128) (u i j)) :
    Parses parseMVProbUpdate (encMVProbUpdate u) u :=
  Parses.fin fun i => Parses.fin fun j => parses_fUnsigned (h i j) _

theorem parses_keyFields {h : KeyFrameHeader} (hr : h.InRange) : Parses parseKeyFrameFields (encKeyFrameHeader h) h := by
  exact Parses.bind (Parses.getBit _ _) <| Parses.bind (Parses.getBit _ _) <|
    Parses.bind (Parses.flagged fun y hy => parses_updateSeg (hr.updateSegmentation y hy)) <|
    Parses.bind (Parses.getBit _ _) <| Parses.bind (Parses.unsigned hr.loopFilterLevel) <|
    Parses.bind (Parses.unsigned hr.sharpnessLevel) <|
    Parses.bind (Parses.flagged fun y hy => Parses.flagged fun z hz => parses_modeRef (hr.modeLfAdjustments y hy z hz)) <|
    Parses.bind (Parses.unsigned hr.log2Partitions) <| Parses.bind (parses_quantIndices hr.quantIndices) <|
    Parses.bind (Parses.getBit _ _) <| Parses.bind (parses_token hr.tokenProbUpdate) <|
    Parses.bind (parses_fUnsigned hr.probSkipFalse _) <| Parses.pure _

theorem parses_keyHeader {h : KeyFrameHeader} (hr : h.InRange) : Parses parseKeyFrameHeader (encKeyFrameHeader h) h := by
  rw [← List.append_nil (encKeyFrameHeader h)]
  refine Parses.bind (parses_keyFields hr) ?_
  rw [if_neg (by rw [hr.colorSpace, hr.clampingType]; decide), if_neg (by rw [hr.filterType]; decide)]
  exact Parses.pure _

theorem parses_interFields {h : InterFrameHeader} (hr : h.InRange) : Parses parseInterFrameFields (encInterFrameHeader h) h := by
  exact Parses.bind (Parses.flagged fun y hy => parses_updateSeg (hr.updateSegmentation y hy)) <|
    Parses.bind (Parses.getBit _ _) <| Parses.bind (Parses.unsigned hr.loopFilterLevel) <|
    Parses.bind (Parses.unsigned hr.sharpnessLevel) <|
    Parses.bind (Parses.flagged fun y hy => Parses.flagged fun z hz => parses_modeRef (hr.modeLfAdjustments y hy z hz)) <|
    Parses.bind (Parses.unsigned hr.log2Partitions) <| Parses.bind (parses_quantIndices hr.quantIndices) <|
    Parses.bind (Parses.getBit _ _) <| Parses.bind (Parses.getBit _ _) <|
    Parses.bind (Parses.optional hr.copyGolden fun y hy => Parses.unsigned (hr.copyGoldenRange y hy)) <|
    Parses.bind (Parses.optional hr.copyAlternate fun y hy => Parses.unsigned (hr.copyAlternateRange y hy)) <|
    Parses.bind (Parses.getBit _ _) <| Parses.bind (Parses.getBit _ _) <|
    Parses.bind (Parses.getBit _ _) <| Parses.bind (Parses.getBit _ _) <|
    Parses.bind (parses_token hr.tokenProbUpdate) <|
    Parses.bind (parses_fUnsigned hr.probSkipFalse _) <|
    Parses.bind (Parses.unsigned hr.probInter) <| Parses.bind (Parses.unsigned hr.probReferencesLast) <|
    Parses.bind (Parses.unsigned hr.probReferencesGolden) <|
    Parses.bind (Parses.flagged fun y hy => Parses.fin fun i => Parses.unsigned (hr.intra16x16Prob y hy i)) <|
    Parses.bind (Parses.flagged fun y hy => Parses.fin fun i => Parses.unsigned (hr.intraChromaProb y hy i)) <|
    Parses.bind (parses_mvProb hr.mvProbUpdate) <| Parses.pure _

theorem parses_interHeader {h : InterFrameHeader} (hr : h.InRange) : Parses parseInterFrameHeader (encInterFrameHeader h) h := by
  rw [← List.append_nil (encInterFrameHeader h)]
  refine Parses.bind (parses_interFields hr) ?_
  rw [if_neg (by rw [hr.filterType]; decide)]
  exact Parses.pure _

/-! ### Whatever is read is in range -/

theorem produces_fSigned (w : Nat) (prob : Prob) : Produces (parseFlagged prob (parseSigned w)) (IfPresent (FitsSigned w)) :=
  Produces.flagged (Produces.signed w)

theorem produces_fUnsigned (w : Nat) (prob : Prob) : Produces (parseFlagged prob (parseUnsigned w)) (IfPresent (· < 2 ^ w)) :=
  Produces.flagged (Produces.unsigned w)

theorem produces_quantIndices : Produces parseQuantIndices QuantIndices.InRange :=
  Produces.bind (Produces.unsigned 7) fun _ h1 => Produces.bind (produces_fSigned 4 _) fun _ h2 =>
  Produces.bind (produces_fSigned 4 _) fun _ h3 => Produces.bind (produces_fSigned 4 _) fun _ h4 =>
  Produces.bind (produces_fSigned 4 _) fun _ h5 => Produces.bind (produces_fSigned 4 _) fun _ h6 =>
  Produces.pure ⟨h1, h2, h3, h4, h5, h6⟩

theorem produces_modeRef : Produces parseModeRefLFDeltaUpdate ModeRefLFDeltaUpdate.InRange :=
  Produces.bind (Produces.fin fun _ => produces_fSigned 6 _) fun _ h1 =>
  Produces.bind (Produces.fin fun _ => produces_fSigned 6 _) fun _ h2 => Produces.pure ⟨h1, h2⟩

theorem produces_segFeature : Produces parseSegmentFeatureData SegmentFeatureData.InRange :=
  Produces.bind (Produces.getBit _) fun _ _ =>
  Produces.bind (Produces.fin fun _ => produces_fSigned 7 _) fun _ h1 =>
  Produces.bind (Produces.fin fun _ => produces_fSigned 6 _) fun _ h2 => Produces.pure ⟨h1, h2⟩

theorem produces_updateSeg : Produces parseUpdateSegmentation UpdateSegmentation.InRange :=
  Produces.bind (Produces.getBit _) fun _ _ =>
  Produces.bind (Produces.flagged produces_segFeature) fun _ h1 =>
  Produces.bind (Produces.optional (Produces.fin fun _ => produces_fUnsigned 8 _)) fun _ h2 => Produces.pure ⟨h1, h2.1, h2.2⟩

theorem produces_token : Produces parseTokenProbUpdate (fun u => ∀ i j k l, IfPresent (· < 256) (u i j k l)) :=
  Produces.fin (P := fun _ (u : Fin 8 → Fin 3 → Fin 11 → Option Nat) => ∀ j k l, IfPresent (· < 256) (u j k l)) fun _ =>
  Produces.fin (P := fun _ (u : Fin 3 → Fin 11 → Option Nat) => ∀ k l, IfPresent (· < 256) (u k l)) fun _ =>
  Produces.fin (P := fun _ (u : Fin 11 → Option Nat) => ∀ l, IfPresent (· < 256) (u l)) fun _ => Produces.fin fun _ => produces_fUnsigned 8 _

theorem produces_mvProb : Produces parseMVProbUpdate (fun u => ∀ i j, IfPresent (· < 128) (u i j)) :=
  Produces.fin (P := fun _ (u : Fin 19 → Option Nat) => ∀ j, IfPresent (· < 128) (u j)) fun _ => Produces.fin fun _ => produces_fUnsigned 7 _

/-- In range but for the three unsupported flags. -/
def KeyFrameHeader.FieldsInRange (h : KeyFrameHeader) : Prop :=
  h.colorSpace = false → h.clampingType = false → h.filterType = false → h.InRange

def InterFrameHeader.FieldsInRange (h : InterFrameHeader) : Prop := h.filterType = false → h.InRange

theorem produces_keyFields : Produces parseKeyFrameFields KeyFrameHeader.FieldsInRange :=
  Produces.bind (Produces.getBit _) fun _ _ => Produces.bind (Produces.getBit _) fun _ _ =>
  Produces.bind (Produces.flagged produces_updateSeg) fun _ h1 => Produces.bind (Produces.getBit _) fun _ _ =>
  Produces.bind (Produces.unsigned 6) fun _ h2 => Produces.bind (Produces.unsigned 3) fun _ h3 =>
  Produces.bind (Produces.flagged (Produces.flagged produces_modeRef)) fun _ h4 =>
  Produces.bind (Produces.unsigned 2) fun _ h5 => Produces.bind produces_quantIndices fun _ h6 =>
  Produces.bind (Produces.getBit _) fun _ _ => Produces.bind produces_token fun _ h7 =>
  Produces.bind (produces_fUnsigned 8 _) fun _ h8 =>
  Produces.pure fun a b c => ⟨a, b, c, h1, h2, h3, h4, h5, h6, h7, h8⟩

theorem produces_interFields : Produces parseInterFrameFields InterFrameHeader.FieldsInRange :=
  Produces.bind (Produces.flagged produces_updateSeg) fun _ h1 => Produces.bind (Produces.getBit _) fun _ _ =>
  Produces.bind (Produces.unsigned 6) fun _ h2 => Produces.bind (Produces.unsigned 3) fun _ h3 =>
  Produces.bind (Produces.flagged (Produces.flagged produces_modeRef)) fun _ h4 =>
  Produces.bind (Produces.unsigned 2) fun _ h5 => Produces.bind produces_quantIndices fun _ h6 =>
  Produces.bind (Produces.getBit _) fun _ _ => Produces.bind (Produces.getBit _) fun _ _ =>
  Produces.bind (Produces.optional (Produces.unsigned 2)) fun _ h7 =>
  Produces.bind (Produces.optional (Produces.unsigned 2)) fun _ h8 =>
  Produces.bind (Produces.getBit _) fun _ _ => Produces.bind (Produces.getBit _) fun _ _ =>
  Produces.bind (Produces.getBit _) fun _ _ => Produces.bind (Produces.getBit _) fun _ _ =>
  Produces.bind produces_token fun _ h9 => Produces.bind (produces_fUnsigned 8 _) fun _ h10 =>
  Produces.bind (Produces.unsigned 8) fun _ h11 => Produces.bind (Produces.unsigned 8) fun _ h12 =>
  Produces.bind (Produces.unsigned 8) fun _ h13 =>
  Produces.bind (Produces.flagged (Produces.fin fun _ => Produces.unsigned 8)) fun _ h14 =>
  Produces.bind (Produces.flagged (Produces.fin fun _ => Produces.unsigned 8)) fun _ h15 =>
  Produces.bind produces_mvProb fun _ h16 =>
  Produces.pure fun a => ⟨a, h1, h2, h3, h4, h5, h6, h7.1, h7.2, h8.1, h8.2, h9, h10, h11, h12, h13, h14, h15, h16⟩

end Alfalfa
