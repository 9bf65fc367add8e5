import Verif.Model.StateFile
import Verif.Props.Bundle

/-! # A state file is whole or is refused (C105) -/

namespace Alfalfa

/-- The decoder that a saved decoder comes back as (C16). -/
def Decoder.comesBackAs (d : Decoder) : Decoder := ⟨d.state, ⟨d.references.last, d.references.last, d.references.last⟩⟩

/-- The system stores all of the bytes: it opens the file, and the calls take `n` bytes before one of them fails. -/
def OutputRun.StoresAll (run : OutputRun) (n : Nat) : Prop := run.opens = true ∧ ∃ before after, run.calls = before ++ after ∧ 0 ∉ before ∧ n ≤ before.sum

theorem storedCount_le (n : Nat) (calls : List Nat) : storedCount n calls ≤ n := by
  induction calls generalizing n with
  | nil => exact Nat.zero_le _
  | cons c calls ih =>
    unfold storedCount
    split
    · exact Nat.zero_le _
    · have := ih (n - min c n)
      omega

theorem storedCount_all {n : Nat} {calls : List Nat} : storedCount n calls = n ↔ ∃ before after, calls = before ++ after ∧ 0 ∉ before ∧ n ≤ before.sum := by
  induction calls generalizing n with
  | nil =>
    constructor
    · intro h
      exact ⟨[], [], rfl, List.not_mem_nil, by simpa [storedCount] using h.symm.le⟩
    · rintro ⟨before, after, h1, -, h3⟩
      obtain ⟨rfl, rfl⟩ := List.append_eq_nil_iff.1 h1.symm
      simp [storedCount] at *
      omega
  | cons c calls ih =>
    unfold storedCount
    split
    · next h =>
      constructor
      · intro hn
        exact ⟨[], c :: calls, rfl, List.not_mem_nil, by omega⟩
      · rintro ⟨before, after, h1, h2, h3⟩
        rcases h with rfl | rfl
        · cases before with
          | nil => simp at h3; omega
          | cons b before => cases h1; simp at h2
        · rfl
    · next h =>
      have hle := storedCount_le (n - min c n) calls
      rw [show (min c n + storedCount (n - min c n) calls = n) ↔ storedCount (n - min c n) calls = n - min c n by omega, ih]
      constructor
      · rintro ⟨before, after, h1, h2, h3⟩
        refine ⟨c :: before, after, by rw [h1]; rfl, ?_, ?_⟩
        · simp only [List.mem_cons, not_or]
          exact ⟨by omega, h2⟩
        · rw [List.sum_cons]; omega
      · rintro ⟨before, after, h1, h2, h3⟩
        cases before with
        | nil => simp at h3; omega
        | cons b before =>
          cases h1
          rw [List.sum_cons] at h3
          exact ⟨before, after, rfl, fun hm => h2 (List.mem_cons_of_mem _ hm), by omega⟩

theorem loadLE_short : ∀ (n : Nat) {l : List UInt8}, l.length < n → loadLE n l = none
  | 0, _, h => absurd h (Nat.not_lt_zero _)
  | n + 1, [], _ => rfl
  | n + 1, b :: l, h => by
    show ((loadLE n l).bind _ : Option _) = none
    rw [loadLE_short n (by rw [List.length_cons] at h; omega)]
    rfl

/-- **C105, another length.** A file that begins as the saved one does and has another length, being cut off or having more after it, is refused. -/
theorem C105_other_length {d : Decoder} (h : d.Ok) (blank : Raster) {rest : List UInt8} (hn : ((saveDecoder d).take 5 ++ rest).length ≠ (saveDecoder d).length) :
    loadDecoder blank ((saveDecoder d).take 5 ++ rest) = none := by
  have h1 := saveState_length h.state
  have h2 := saveReferences_length h.references.last
  have h3 := rasterLen_lt h.state.width.2 h.state.height.2 h.references.last
  have h4 := stateLen_lt h.state
  have hlt : (stateLen d.state + 5) + (4 + (rasterLen d.references.last.y.width d.references.last.y.height + 5) + 5) < 256 ^ 4 := by omega
  have hlen (n v : Nat) : (putLE n v).length = n := by
    induction n generalizing v with
    | zero => rfl
    | succ n ih => rw [putLE, List.length_cons, ih]
  have htake : (saveDecoder d).take 5 = UInt8.ofNat TAG_DECODER :: putLE 4 ((stateLen d.state + 5) +
      (4 + (rasterLen d.references.last.y.width d.references.last.y.height + 5) + 5)) := by
    unfold saveDecoder saveSection
    rw [List.take_succ_cons, List.take_append_of_le_length (by rw [hlen]), List.take_of_length_le (by rw [hlen])]
  have hall : (saveDecoder d).length = 5 + ((stateLen d.state + 5) + (4 + (rasterLen d.references.last.y.width d.references.last.y.height + 5) + 5)) := by
    unfold saveDecoder saveSection
    rw [List.length_cons, List.length_append, hlen, List.length_append, h1, h2]
    omega
  rw [hall, htake, List.cons_append, List.length_cons, List.length_append, hlen] at hn
  rw [htake, List.cons_append]
  have k0 := loads_tag TAG_DECODER (by decide) (putLE 4 ((stateLen d.state + 5) +
    (4 + (rasterLen d.references.last.y.width d.references.last.y.height + 5) + 5)) ++ rest)
  have k1 := loads_LE 4 _ hlt rest
  unfold loadDecoder
  rw [List.singleton_append] at k0
  rw [k0, Option.bind_some]
  simp only
  rw [if_neg (fun h => h rfl), k1, Option.bind_some]
  simp only
  rw [if_pos (by omega)]

/-- **C105, nothing is misread.** Whatever the system does while a state is written, and at whatever moment the program is ended: if the file has been opened, it is
the whole state and comes back as the decoder that was saved, or it is refused. -/
theorem C105_whole_or_refused (d : Decoder) (h : d.Ok) (run : OutputRun) (hopen : run.opens = true) (old : Option (List UInt8)) :
    ∃ contents, writeStateFile run old (saveDecoder d) = some contents ∧
      ((run.StoresAll (saveDecoder d).length ∧ ∀ blank, loadDecoder blank contents = some d.comesBackAs) ∨
        (¬ run.StoresAll (saveDecoder d).length ∧ ∀ blank, loadDecoder blank contents = none)) := by
  refine ⟨(saveDecoder d).take (storedCount (saveDecoder d).length run.calls), by unfold writeStateFile; rw [if_pos hopen], ?_⟩
  have hle := storedCount_le (saveDecoder d).length run.calls
  by_cases hall : storedCount (saveDecoder d).length run.calls = (saveDecoder d).length
  · refine .inl ⟨⟨hopen, storedCount_all.1 hall⟩, fun blank => ?_⟩
    rw [hall, List.take_length]
    exact load_save h blank
  · refine .inr ⟨fun hs => hall (storedCount_all.2 hs.2), fun blank => ?_⟩
    generalize storedCount (saveDecoder d).length run.calls = k at hle hall ⊢
    by_cases h5 : 5 ≤ k
    · have : (saveDecoder d).take k = (saveDecoder d).take 5 ++ ((saveDecoder d).take k).drop 5 := by
        conv_lhs => rw [← List.take_append_drop 5 ((saveDecoder d).take k), List.take_take, Nat.min_eq_left h5]
      rw [this]
      refine C105_other_length h blank ?_
      rw [← this, List.length_take]
      omega
    · unfold loadDecoder
      cases hf : (saveDecoder d).take k with
      | nil => rfl
      | cons b l =>
        have hl : l.length < 4 := by
          have := congrArg List.length hf
          rw [List.length_take, List.length_cons] at this
          omega
        show (if b.toNat ≠ TAG_DECODER then none else (loadLE 4 l).bind _ : Option Decoder) = none
        rw [loadLE_short 4 hl]
        split <;> rfl

/-- **C105, a failed run.** If the dump program reports an error the file is what it was before. -/
theorem C105_failure_keeps_file (R : Renderer) (mix : Nat → Nat → Nat) (fresh : References) (start : Option (Raster × List UInt8)) (video : List UInt8)
    (frameNumber : Option Nat) (run : OutputRun) (old : Option (List UInt8)) :
    (xcDumpFile R mix fresh start video frameNumber run old).2 ≠ none → (xcDumpFile R mix fresh start video frameNumber run old).1 = old := by
  unfold xcDumpFile
  split
  · exact fun h => absurd rfl h
  · exact fun _ => rfl

/-- The file that the dump program writes is the saved decoder. -/
theorem dump_saves {R : Renderer} (hR : R.Ok) (mix : Nat → Nat → Nat) {fresh : References} {start : Option (Raster × List UInt8)} {bytes : List UInt8} {c : Chunk} (hc : c.InFile bytes)
    (hlen : c.2.length < 2 ^ 32) {d : Decoder} (hd : d.Ok) (hs : BeginsWith fresh start c.1.width c.1.height d) (hgoes : c.GoesWith mix d) {frameNumber : Option Nat} {k : Nat}
    (hk : frameNumber.getD (c.2.length - 1) = k) (hin : k < c.2.length) (ho : ∀ out ∈ (d.run R (c.2.take (k + 1))).2, ∃ x, out = .ok x) :
    xcDump R mix fresh start bytes frameNumber = .ok (saveDecoder (d.run R (c.2.take (k + 1))).1) := by
  obtain ⟨ivf, h1, h2⟩ := hc
  have hsize : ivf.width = d.state.width ∧ ivf.height = d.state.height ∧ dumpStart fresh start ivf = some d := by
    unfold dumpStart
    rw [h2.width, h2.height]
    unfold BeginsWith at hs
    rcases start with _ | ⟨blank, state⟩
    · dsimp only at hs; subst hs; exact ⟨rfl, rfl, rfl⟩
    · exact ⟨hs.2.1.symm, hs.2.2.symm, hs.1⟩
  unfold xcDump
  rw [h1]
  dsimp only
  rw [hsize.2.2]
  dsimp only
  have hm : ¬ d.minihashMatch mix ivf.expectedMinihash = false := by rw [(goesWith_iff h2).2 hgoes]; decide
  rw [if_neg hm]
  have hnum : frameNumber.getD ((ivf.frameCount + (2 ^ 32 - 1)) % 2 ^ 32) = k := by
    cases frameNumber with
    | some n => rw [Option.getD_some] at hk ⊢; exact hk
    | none => rw [Option.getD_none] at hk ⊢; rw [h2.frameCount]; omega
  rw [hnum]
  refine dumpLoop_spec hR hd hsize.1 hsize.2.1 (fun h => ?_) (by rw [List.length_take, h2.frameCount]; omega) (by rw [List.length_take]; omega) (fun j hj => ?_) ho
  · have := congrArg List.length h
    rw [List.length_take, List.length_nil] at this
    omega
  · rw [Nat.zero_add, List.getElem_take]
    exact h2.contents _ _

/-- **C105, what the program reports.** The video is readable and can be decoded to the frame: the program reports success.  The file then comes back as the decoder after that frame
exactly if the system has stored all of it, is refused if it was opened, and is what it was if it could not be opened.  Missing in the full statement: the program should report
success only in the first case. -/
theorem C105_dump_partial {R : Renderer} (hR : R.Ok) (mix : Nat → Nat → Nat) {fresh : References} {start : Option (Raster × List UInt8)} {video : List UInt8} {c : Chunk}
    (hc : c.InFile video) (hlen : c.2.length < 2 ^ 32) {d : Decoder} (hd : d.Ok) (hs : BeginsWith fresh start c.1.width c.1.height d) (hgoes : c.GoesWith mix d)
    {frameNumber : Option Nat} {k : Nat} (hk : frameNumber.getD (c.2.length - 1) = k) (hin : k < c.2.length) (ho : ∀ out ∈ (d.run R (c.2.take (k + 1))).2, ∃ x, out = .ok x) :
    ∃ n, ∀ (run : OutputRun) (old : Option (List UInt8)), ∃ after, xcDumpFile R mix fresh start video frameNumber run old = (after, none) ∧
      (run.opens = false → after = old) ∧
      (run.opens = true → ∃ contents, after = some contents ∧
        ((run.StoresAll n ∧ ∀ blank, loadDecoder blank contents = some (d.run R (c.2.take (k + 1))).1.comesBackAs) ∨
          (¬ run.StoresAll n ∧ ∀ blank, loadDecoder blank contents = none))) := by
  have hok := (C18_any_history R hR (c.2.take (k + 1)) d hd).1
  have hdump : xcDump R mix fresh start video frameNumber = .ok (saveDecoder (d.run R (c.2.take (k + 1))).1) := dump_saves hR mix hc hlen hd hs hgoes hk hin ho
  refine ⟨(saveDecoder (d.run R (c.2.take (k + 1))).1).length, fun run old => ⟨writeStateFile run old (saveDecoder (d.run R (c.2.take (k + 1))).1), ?_, ?_, fun h => ?_⟩⟩
  · unfold xcDumpFile
    rw [hdump]
  · intro h
    unfold writeStateFile
    rw [if_neg (by rw [h]; decide)]
  · exact C105_whole_or_refused _ hok run h old

/-- **C105 is violated.** The program reports success although the file cannot be opened, and what the next program reads is the state that was there before. -/
theorem C105_success_without_file {R : Renderer} (mix : Nat → Nat → Nat) {fresh : References} {start : Option (Raster × List UInt8)} {video state : List UInt8}
    {frameNumber : Option Nat} (h : xcDump R mix fresh start video frameNumber = .ok state) (earlier : Decoder) (he : earlier.Ok) (calls : List Nat) :
    ∃ contents, xcDumpFile R mix fresh start video frameNumber ⟨false, calls⟩ (some (saveDecoder earlier)) = (some contents, none) ∧
      ∀ blank, loadDecoder blank contents = some earlier.comesBackAs := by
  refine ⟨saveDecoder earlier, ?_, fun blank => load_save he blank⟩
  unfold xcDumpFile
  rw [h]
  rfl

/-- The same with a full disk: success, and the state that was there before is lost. -/
theorem C105_success_on_full_disk {R : Renderer} (mix : Nat → Nat → Nat) {fresh : References} {start : Option (Raster × List UInt8)} {video state : List UInt8}
    {frameNumber : Option Nat} (h : xcDump R mix fresh start video frameNumber = .ok state) (old : Option (List UInt8)) (calls : List Nat) :
    xcDumpFile R mix fresh start video frameNumber ⟨true, 0 :: calls⟩ old = (some [], none) ∧ ∀ blank, loadDecoder blank [] = none := by
  refine ⟨?_, fun _ => rfl⟩
  unfold xcDumpFile
  rw [h]
  rfl

/-! ### Examples -/

/-- A system that stores a state in pieces, and one whose disk is full after the first piece. -/
example : (⟨true, [8191, 100000, 100000, 0]⟩ : OutputRun).StoresAll (saveDecoder exampleDecoder).length ∧
    ¬ (⟨true, [1000, 0, 100000]⟩ : OutputRun).StoresAll (saveDecoder exampleDecoder).length := by
  have hlen : (saveDecoder exampleDecoder).length ≤ 108191 ∧ 1000 < (saveDecoder exampleDecoder).length := by decide +kernel
  refine ⟨⟨rfl, [8191, 100000], [100000, 0], rfl, by decide, hlen.1⟩, fun h => ?_⟩
  have := storedCount_all.2 h.2
  unfold storedCount at this
  rw [if_neg (by omega)] at this
  unfold storedCount at this
  rw [if_pos (.inl rfl)] at this
  omega

/-- The hypotheses of `C105_dump_partial` hold for the key frame of `exampleChunks`. -/
example (mix : Nat → Nat → Nat) : ∃ (video : List UInt8) (n : Nat) (saved : Decoder), ∀ run old, ∃ after,
    xcDumpFile codeRenderer mix exampleFresh none video none run old = (after, none) ∧ (run.opens = false → after = old) ∧
      (run.opens = true → ∃ contents, after = some contents ∧ ((run.StoresAll n ∧ ∀ blank, loadDecoder blank contents = some saved.comesBackAs) ∨
        (¬ run.StoresAll n ∧ ∀ blank, loadDecoder blank contents = none))) := by
  obtain ⟨key, inter, d1, x1, x2, l1, l2, hk, hconv, r1, r2⟩ := exampleChunks
  have f1 : Chunk.InFile (exampleChunkInfo 0, [key]) (ivfBytes (exampleChunkInfo 0) [key]) :=
    inFile_layout (exampleChunkInfo_fits (by decide)) (show 1 < 2 ^ 32 by decide) (List.forall_mem_cons.2 ⟨l1, fun _ h => nomatch h⟩)
  obtain ⟨n, h⟩ := C105_dump_partial C63_renderer mix f1 (show 1 < 2 ^ 32 by decide) exampleFresh_ok (start := none) rfl (.inl rfl) (frameNumber := none) (k := 0) rfl (Nat.zero_lt_one)
    (by
      intro out ho
      change out ∈ ((Decoder.new exampleFresh 17 20).run codeRenderer [key]).2 at ho
      rw [r1] at ho
      obtain rfl := List.mem_singleton.1 ho
      exact ⟨_, rfl⟩)
  exact ⟨_, n, _, h⟩

end Alfalfa
