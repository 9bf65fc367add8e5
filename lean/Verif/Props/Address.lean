import Verif.Model.Address
import Verif.Spec.Names
import Verif.Props.Averages

/-! C97: addresses and datagrams arrive as they were sent. -/

namespace Alfalfa

/-! ### Equality of addresses -/

theorem Address.same_iff {a b : Address} (h : a.bytes.length = b.bytes.length) : a.same b = true ↔ a = b := by
  unfold Address.same Address.memory
  rw [beq_iff_eq, List.take_left, h, List.take_left]
  constructor
  · intro h'; cases a; cases b; simp only at h' ⊢; rw [h']
  · intro h'; rw [h']

/-- **C97.**  Two addresses that are made from the same number of bytes compare as equal exactly if the bytes are the same. -/
theorem C97_equal_partial (x y : List UInt8) (hl : x.length = y.length) (hx : x.length ≤ 128) :
    ∃ a b, Address.make x x.length = some a ∧ Address.make y y.length = some b ∧ (a.same b = true ↔ x = y) := by
  refine ⟨⟨x⟩, ⟨y⟩, ?_, ?_, ?_⟩
  · unfold Address.make; rw [if_neg (by simp only [storageSize]; omega), List.take_length]
  · unfold Address.make; rw [if_neg (by simp only [storageSize]; omega), List.take_length]
  · rw [Address.same_iff hl]
    exact ⟨fun h => Address.mk.inj h, fun h => by rw [h]⟩

/-- The loopback address of IPv6 with the ports 80 and 81. -/
example : ∃ x y : List UInt8, x.length = y.length ∧ x.length ≤ 128 ∧ x ≠ y :=
  ⟨[10, 0, 0, 80] ++ List.replicate 19 0 ++ [1, 0, 0, 0, 0], [10, 0, 0, 81] ++ List.replicate 19 0 ++ [1, 0, 0, 0, 0], by decide, by decide, by decide⟩

/-- **C97.**  An address of which more bytes are claimed than there is room for is refused. -/
theorem C97_too_large (x : List UInt8) (n : Nat) (h : 128 < n) : Address.make x n = none := by
  unfold Address.make
  rw [if_pos (by simpa only [storageSize] using h)]

example : (128 : Nat) < 129 := by decide

/-- **The code violates the full statement.**  Equality has two sides: the empty address is equal to every address, and no address with a byte that is not zero is equal to it. -/
theorem C97_equal_one_sided (x : List UInt8) (hx : x.length ≤ 128) (hz : ∃ v ∈ x, v ≠ 0) :
    ∃ a, Address.make x x.length = some a ∧ ({} : Address).same a = true ∧ a.same {} = false := by
  refine ⟨⟨x⟩, ?_, ?_, ?_⟩
  · unfold Address.make; rw [if_neg (by simp only [storageSize]; omega), List.take_length]
  · simp [Address.same, Address.memory]
  · unfold Address.same Address.memory
    rw [List.take_left, beq_eq_false_iff_ne]
    intro h
    obtain ⟨v, hv, hne⟩ := hz
    have hv' : v ∈ ({ bytes := x } : Address).bytes := hv
    rw [h] at hv'
    have := List.mem_of_mem_take hv'
    simp only [List.nil_append, List.mem_replicate] at this
    exact hne this.2

example : ∃ v ∈ ([10, 0, 0, 80] : List UInt8), v ≠ 0 := ⟨10, by decide, by decide⟩

/-! ### Texts -/

/-- **C97.**  If the C library reads the text that it wrote for an address as this address, then the text and the port that `ip_port` gives are read as this address, shortened or not. -/
theorem C97_text_partial (R : Resolver) (a : Address) (t : List Char) (p : Nat) (hn : R.name a.bytes = some (t, p)) (hb : R.host t p = some a.bytes)
    (hs : ∀ s q c, R.host s q = some c → c.length = a.bytes.length) {ip : List Char} {port : Nat} (h : a.ipPort R = some (ip, port)) :
    port = p ∧ R.host ip port = some a.bytes := by
  unfold Address.ipPort at h
  rw [hn] at h
  simp only at h
  split at h
  · split at h
    · cases h
    · rename_i c hc
      split at h
      · rename_i he
        simp only [Option.some.injEq, Prod.mk.injEq] at h
        have := (Address.same_iff (a := ⟨c⟩) (b := a) (hs _ _ _ hc)).1 he
        rw [← h.1, ← h.2]
        refine ⟨rfl, ?_⟩
        rw [hc, ← this]
      · simp only [Option.some.injEq, Prod.mk.injEq] at h
        rw [← h.1, ← h.2]; exact ⟨rfl, hb⟩
  · simp only [Option.some.injEq, Prod.mk.injEq] at h
    rw [← h.1, ← h.2]; exact ⟨rfl, hb⟩

/-- **C97.**  So two addresses with the same text and the same port are the same. -/
theorem C97_text_faithful_partial (R : Resolver) (a b : Address) (ta tb : List Char) (p q : Nat) (ha : R.name a.bytes = some (ta, p)) (hb : R.name b.bytes = some (tb, q))
    (ha' : R.host ta p = some a.bytes) (hb' : R.host tb q = some b.bytes) (n : Nat) (hs : ∀ s q c, R.host s q = some c → c.length = n)
    {r : List Char × Nat} (h1 : a.ipPort R = some r) (h2 : b.ipPort R = some r) : a = b := by
  have na := hs _ _ _ ha'
  have nb := hs _ _ _ hb'
  have e1 := C97_text_partial R a ta p ha ha' (fun s q c h => (hs s q c h).trans na.symm) (ip := r.1) (port := r.2) h1
  have e2 := C97_text_partial R b tb q hb hb' (fun s q c h => (hs s q c h).trans nb.symm) (ip := r.1) (port := r.2) h2
  have := e1.2.symm.trans e2.2
  cases a; cases b
  simp only [Option.some.injEq] at this
  rw [this]

theorem colon_not_in (b : Nat) (hb : 1 < b) (hb' : b ≤ 16) : ∀ n, ':' ∉ Nat.toDigits b n := by
  have hd : ∀ k < 16, ':' ≠ Nat.digitChar k := by decide
  intro n
  induction n using Nat.strongRecOn with
  | ind n ih =>
    rw [Nat.toDigits_eq_if hb]
    split
    · rw [List.mem_singleton]; exact hd _ (by omega)
    · rename_i hlt
      rw [List.mem_append, List.mem_singleton, not_or]
      exact ⟨ih _ (Nat.div_lt_self (by omega) hb), hd _ (lt_of_lt_of_le (Nat.mod_lt _ (by omega)) hb')⟩

/-- No two colons in a row. -/
theorem no_double {x y : List Char} (hx : ':' ∉ x) (hy : ∀ c ∈ y.head?, c ≠ ':') (h : ¬ [':', ':'] <:+: y) : ¬ [':', ':'] <:+: x ++ ':' :: y := by
  induction x with
  | nil =>
    rw [List.nil_append, List.infix_cons_iff]
    rintro (h' | h')
    · rw [List.cons_prefix_cons] at h'
      cases y with
      | nil => simp at h'
      | cons c y =>
        rw [List.cons_prefix_cons] at h'
        exact hy c (by simp) h'.2.1.symm
    · exact h h'
  | cons c x ih =>
    rw [List.cons_append, List.infix_cons_iff]
    rw [List.mem_cons, not_or] at hx
    rintro (h' | h')
    · rw [List.cons_prefix_cons] at h'
      exact hx.1 h'.1
    · exact ih hx.2 h'

theorem head_not {x y : List Char} (hx : ':' ∉ x) (hne : x ≠ []) : ∀ c ∈ (x ++ y).head?, c ≠ ':' := by
  cases x with
  | nil => exact absurd rfl hne
  | cons d x =>
    intro c hc he
    simp only [List.cons_append, List.head?_cons, Option.mem_some_iff] at hc
    exact hx (by rw [hc, he]; simp)

/-- The last colon divides a text. -/
theorem last_colon {a b : List Char} : ∀ {x y : List Char}, ':' ∉ x → ':' ∉ y → a ++ ':' :: x = b ++ ':' :: y → a = b ∧ x = y := by
  induction a generalizing b with
  | nil =>
    intro x y hx hy h
    cases b with
    | nil => simpa using h
    | cons c b =>
      simp only [List.nil_append, List.cons_append, List.cons.injEq] at h
      exact absurd (by rw [h.2]; simp) hx
  | cons d a ih =>
    intro x y hx hy h
    cases b with
    | nil =>
      simp only [List.nil_append, List.cons_append, List.cons.injEq] at h
      exact absurd (by rw [← h.2]; simp) hy
    | cons c b =>
      simp only [List.cons_append, List.cons.injEq] at h
      obtain ⟨e1, e2⟩ := ih hx hy h.2
      exact ⟨by rw [h.1, e1], e2⟩

/-- **C97.**  The text with the port in it tells the two apart, although the text of an address has colons too: two addresses with the same `to_string` have the same `ip_port`. -/
theorem C97_to_string (R : Resolver) (a b : Address) {t : List Char} (h1 : a.text R = some t) (h2 : b.text R = some t) : a.ipPort R = b.ipPort R ∧ a.ipPort R ≠ none := by
  unfold Address.text at h1 h2
  rcases ha : a.ipPort R with _ | ⟨i, p⟩
  · rw [ha] at h1; cases h1
  · rcases hb : b.ipPort R with _ | ⟨j, q⟩
    · rw [hb] at h2; cases h2
    · rw [ha] at h1; rw [hb] at h2
      simp only [Option.map_some, Option.some.injEq] at h1 h2
      obtain ⟨e1, e2⟩ := last_colon (colon_not_in 10 (by decide) (by decide) p) (colon_not_in 10 (by decide) (by decide) q) (h1.trans h2.symm)
      have := congrArg (fun l => Nat.ofDigitChars 10 l 0) e2
      simp only [Nat.ofDigitChars_toDigits (b := 10) (by decide) (by decide)] at this
      rw [e1, this]
      exact ⟨rfl, by simp⟩

/-- **C97.**  An address that stands for one of IPv4 is written as one of IPv4. -/
theorem C97_short (R : Resolver) (a : Address) (u v port : Nat) (hn : R.name a.bytes = some (ipText [0, 0, 0, 0, 0, 0xffff, u, v], port))
    (hb : R.host (dotted u v) port = some a.bytes) : a.ipPort R = some (dotted u v, port) := by
  have ht : ipText [0, 0, 0, 0, 0, 0xffff, u, v] = "::ffff:".toList ++ dotted u v := by
    by_cases hu : u = 0 <;> by_cases hv : v = 0 <;> simp [ipText, zeroRun, List.range, List.range.loop, hu, hv]
  have hd : ∀ d : List Char, ("::ffff:".toList ++ d).drop 7 = d := fun d => rfl
  have hl : ("::ffff:".toList ++ dotted u v).length > 7 := by
    rw [List.length_append]
    have : 0 < (dotted u v).length := by unfold dotted; simp
    have : "::ffff:".toList.length = 7 := rfl
    omega
  unfold Address.ipPort
  rw [hn, ht]
  simp only [hd, hb]
  rw [if_pos ⟨hl, rfl⟩, if_pos ((Address.same_iff rfl).2 rfl)]

/-- **The code violates the full statement.**  An address that begins with four zero words and the word ffff stands for none of IPv4, but its text begins in the same way.  The rest of the text
is no address, so that the library refuses it, and the exception leaves `ip_port`. -/
theorem C97_text_throws (R : Resolver) (hR : ∀ s port, R.host s port ≠ none → CouldBeAddress s) (a : Address) (u v w port : Nat)
    (hn : R.name a.bytes = some (ipText [0, 0, 0, 0, 0xffff, u, v, w], port)) : a.ipPort R = none ∧ a.text R = none := by
  have ht : ipText [0, 0, 0, 0, 0xffff, u, v, w] = "::ffff:".toList ++ (hexText u ++ ':' :: (hexText v ++ ':' :: hexText w)) := by
    by_cases hu : u = 0 <;> by_cases hv : v = 0 <;> by_cases hw : w = 0 <;>
      simp [ipText, zeroRun, List.range, List.range.loop, hu, hv, hw, colons, hexText, Nat.toDigits, Nat.toDigitsCore, Nat.digitChar]
  have hd : ∀ d : List Char, ("::ffff:".toList ++ d).drop 7 = d := fun d => rfl
  have hno : R.host (hexText u ++ ':' :: (hexText v ++ ':' :: hexText w)) port = none := by
    by_contra hne
    have c1 := colon_not_in 16 (by decide) (by decide) u
    have c2 := colon_not_in 16 (by decide) (by decide) v
    have c3 := colon_not_in 16 (by decide) (by decide) w
    rcases hR _ _ hne with h | h | h
    · exact h (by simp)
    · have hw : ¬ [':', ':'] <:+: hexText w := fun h => c3 (h.subset (by simp))
      have hv := no_double (x := hexText v) c2 (by have := head_not (y := []) c3 Nat.toDigits_ne_nil; rwa [List.append_nil] at this) hw
      exact no_double (x := hexText u) c1 (head_not c2 Nat.toDigits_ne_nil) hv h
    · rw [List.count_append, List.count_cons, List.count_append, List.count_cons] at h
      unfold hexText at h
      rw [List.count_eq_zero_of_not_mem c1, List.count_eq_zero_of_not_mem c2, List.count_eq_zero_of_not_mem c3] at h
      simp at h
  have key : a.ipPort R = none := by
    unfold Address.ipPort
    rw [hn, ht]
    simp only [hd, hno]
    rw [if_pos]
    refine ⟨?_, rfl⟩
    rw [List.length_append, List.length_append, List.length_cons]
    have : "::ffff:".toList.length = 7 := rfl
    omega
  exact ⟨key, by unfold Address.text; rw [key]; rfl⟩

/-- The address ::ffff:0:102:304, with a library that knows only this one. -/
example : ∃ (R : Resolver) (a : Address), (∀ s port, R.host s port ≠ none → CouldBeAddress s) ∧ R.name a.bytes = some (ipText [0, 0, 0, 0, 0xffff, 0, 0x102, 0x304], 80) :=
  ⟨{ name := fun _ => some (ipText [0, 0, 0, 0, 0xffff, 0, 0x102, 0x304], 80), host := fun _ _ => none }, {}, fun _ _ h => absurd rfl h, rfl⟩

example : String.ofList (ipText [0, 0, 0, 0, 0xffff, 0, 0x102, 0x304]) = "::ffff:0:102:304" := by decide
example : String.ofList (ipText [0, 0, 0, 0, 0, 0xffff, 0x7f00, 1]) = "::ffff:127.0.0.1" := by decide
example : String.ofList (ipText [0x2001, 0xdb8, 0, 0, 1, 0, 0, 1]) = "2001:db8::1:0:0:1" := by decide

/-- A library that knows 127.0.0.1, in both ways of writing it. -/
def smallResolver : Resolver where
  name := fun b => if b = [127, 0, 0, 1] then some (ipText [0, 0, 0, 0, 0, 0xffff, 0x7f00, 1], 80) else none
  host := fun s p => if (s = "127.0.0.1".toList ∨ s = "::ffff:127.0.0.1".toList) ∧ p = 80 then some [127, 0, 0, 1] else none

example : smallResolver.name [127, 0, 0, 1] = some ("::ffff:127.0.0.1".toList, 80) ∧ smallResolver.host "::ffff:127.0.0.1".toList 80 = some [127, 0, 0, 1] ∧
    smallResolver.host (dotted 0x7f00 1) 80 = some [127, 0, 0, 1] ∧ (∀ s q c, smallResolver.host s q = some c → c.length = 4) ∧
    (⟨[127, 0, 0, 1]⟩ : Address).text smallResolver = some "127.0.0.1:80".toList := by
  refine ⟨by decide, by decide, by decide, ?_, by decide⟩
  intro s q c h
  unfold smallResolver at h
  simp only at h
  split at h
  · cases h; rfl
  · cases h

/-! ### Datagrams -/

theorem receive_eq {d : Datagram} {a : Arrival} (h : Datagram.receive (some d) = some a) :
    d.payload.length ≤ 65536 ∧ d.otherFlags = false ∧ d.source.length ≤ 128 ∧ a.source = ⟨d.source⟩ ∧ a.payload = d.payload ∧ a.timestamp = findTimestamp d.control (2 ^ 64 - 1) := by
  unfold Datagram.receive at h
  simp only at h
  split at h
  · cases h
  · rename_i h1
    split at h
    · cases h
    · rename_i h2
      unfold Address.make at h
      split at h
      · cases h
      · rename_i b hb
        split at hb
        · cases hb
        · rename_i h3
          simp only [Option.some.injEq] at h hb
          simp only [receiveMtu] at h1
          simp only [storageSize] at h3
          refine ⟨by omega, by simpa using h2, by omega, ?_, ?_, ?_⟩
          · rw [← h, ← hb, List.take_length]
          · rw [← h]; exact List.take_of_length_le (by simp only [receiveMtu]; omega)
          · rw [← h]

/-- **C97.**  A datagram is received as a whole or not at all, with the address of its sender: a payload is never cut. -/
theorem C97_whole (d : Datagram) (a : Arrival) (h : Datagram.receive (some d) = some a) : a.payload = d.payload ∧ a.source.bytes = d.source := by
  obtain ⟨_, _, _, h1, h2, _⟩ := receive_eq h
  exact ⟨h2, by rw [h1]⟩

/-- **C97.**  A datagram of UDP, whose payload has fewer than 65536 bytes, that comes without a special flag from an address of IPv6 is received. -/
theorem C97_received (d : Datagram) (hp : d.payload.length < 65536) (hs : d.source.length = 28) (hf : d.otherFlags = false) : ∃ a, Datagram.receive (some d) = some a := by
  unfold Datagram.receive
  simp only
  rw [if_neg (by simp only [receiveMtu]; omega), if_neg (by rw [hf]; decide)]
  unfold Address.make
  rw [if_neg (by simp only [storageSize]; omega)]
  exact ⟨_, rfl⟩

/-- **C97.**  A datagram that does not fit, or that has another flag, ends the call by an exception. -/
theorem C97_refused (d : Datagram) (h : 65536 < d.payload.length ∨ d.otherFlags = true) : Datagram.receive (some d) = none := by
  unfold Datagram.receive
  simp only
  rcases h with h | h
  · rw [if_pos (by simp only [receiveMtu]; omega)]
  · simp only [h, if_true, ite_self]

example : ∃ d : Datagram, d.payload.length < 65536 ∧ d.source.length = 28 ∧ d.otherFlags = false := ⟨{ source := List.replicate 28 1, payload := [1, 2, 3] }, by decide, by decide, rfl⟩

theorem findTimestamp_none : ∀ (cs : List Control) (t : Nat), (∀ c ∈ cs, ¬ (c.level = 1 ∧ c.type = 35)) → findTimestamp cs t = t := by
  intro cs
  induction cs with
  | nil => intro t _; rfl
  | cons c cs ih =>
    intro t h
    unfold findTimestamp
    rw [if_neg (show ¬ (c.level = solSocket ∧ c.type = soTimestampns) from h c (by simp))]
    exact ih t fun c hc => h c (by simp [hc])

theorem findTimestamp_append : ∀ (cs ds : List Control) (t : Nat), findTimestamp (cs ++ ds) t = findTimestamp ds (findTimestamp cs t) := by
  intro cs
  induction cs with
  | nil => intro ds t; rfl
  | cons c cs ih => intro ds t; exact ih ds _

/-- **C97.**  The time that is reported is the time of the kernel, in whole microseconds, for times until 2^64 nanoseconds after 1970 (the year 2554), wherever the message with the time is among
other messages. -/
theorem C97_time_partial (d : Datagram) (a : Arrival) (h : Datagram.receive (some d) = some a) (before after : List Control) (seconds nanoseconds : Nat)
    (hc : d.control = before ++ { level := 1, type := 35, seconds, nanoseconds } :: after) (ha : ∀ c ∈ after, ¬ (c.level = 1 ∧ c.type = 35))
    (_ : nanoseconds < 1000000000) (ht : seconds * 1000000000 + nanoseconds < 2 ^ 64) :
    a.timestamp = seconds * 1000000 + nanoseconds / 1000 := by
  obtain ⟨_, _, _, _, _, h3⟩ := receive_eq h
  rw [h3, hc, findTimestamp_append]
  unfold findTimestamp
  rw [if_pos ⟨rfl, rfl⟩, findTimestamp_none _ _ ha]
  unfold timestampUs
  simp only
  rw [Nat.mod_eq_of_lt ht]
  omega

example : Datagram.receive (some { source := List.replicate 28 1, payload := [7], control := [{ level := 41, type := 50, seconds := 0, nanoseconds := 0 }, { level := 1, type := 35, seconds := 1794858017, nanoseconds := 123456789 }] }) =
    some { source := ⟨List.replicate 28 1⟩, timestamp := 1794858017123456, payload := [7] } := by decide

/-- **The code violates the full statement.**  A datagram without a time gets the time 2^64 - 1, and a receiver that gets one is ended by an assertion at the next packet that has a time. -/
theorem C97_no_time (d : Datagram) (a : Arrival) (h : Datagram.receive (some d) = some a) (hc : ∀ c ∈ d.control, ¬ (c.level = 1 ∧ c.type = 35)) :
    a.timestamp = 2 ^ 64 - 1 ∧ ∀ fl t s u, u < 2 ^ 64 - 1 → ({} : Average).packets fl [(a.timestamp, s), (u, t)] = none := by
  obtain ⟨_, _, _, _, _, h3⟩ := receive_eq h
  have e : a.timestamp = 2 ^ 64 - 1 := by rw [h3, findTimestamp_none _ _ hc]
  refine ⟨e, fun fl t s u hu => C93_clock_set_back fl _ _ ?_⟩
  rw [e]; exact hu

/-! ### A network that loses, repeats and reorders -/

/-- What holds after every step. -/
def Wire.Good (w : Wire) : Prop :=
  w.reads = w.got.length ∧ ∀ a ∈ w.got, (a.source.bytes, a.payload) ∈ w.sent

theorem Wire.step_good {w : Wire} (h : w.Good) (e : WireEvent) : (w.step e).Good := by
  cases e with
  | other s p => exact ⟨h.1, fun a ha => List.mem_append_left _ (h.2 a ha)⟩
  | receiveFails => exact h
  | send p n =>
    unfold Wire.step
    simp only
    split
    · exact h
    · split <;> exact h
  | arrives k control otherFlags =>
    unfold Wire.step
    simp only
    split
    · exact h
    · split
      · exact h
      · rename_i s p hk
        split
        · exact h
        · rename_i a ha
          refine ⟨by simp [h.1], ?_⟩
          intro b hb
          rcases List.mem_append.1 hb with hb | hb
          · exact h.2 b hb
          · rw [List.mem_singleton] at hb
            obtain ⟨h1, h2⟩ := C97_whole _ _ ha
            rw [hb, h1, h2]
            exact List.mem_of_getElem? hk

/-- **C97.**  On a network that loses, repeats and reorders datagrams, in any order of events: what a program has received was sent, with these bytes and by this sender, and it counts as many
reads as it has received datagrams. -/
theorem C97_network (es : List WireEvent) : (({} : Wire).run es).reads = (({} : Wire).run es).got.length ∧
    ∀ a ∈ (({} : Wire).run es).got, (a.source.bytes, a.payload) ∈ (({} : Wire).run es).sent := by
  have key : ∀ (es : List WireEvent) (w : Wire), w.Good → (w.run es).Good := by
    intro es
    induction es with
    | nil => intro w h; exact h
    | cons e es ih => intro w h; exact ih _ (Wire.step_good h e)
  exact key es {} ⟨rfl, fun a ha => nomatch ha⟩

/-- **C97.**  A datagram of UDP that was sent and that the network gives to a program that runs is received, as it is and at this place in the order of arrival. -/
theorem C97_arrives (w : Wire) (hw : w.failed = false) (k : Nat) (source payload : List UInt8) (control : List Control) (hk : w.sent[k]? = some (source, payload))
    (hp : payload.length < 65536) (hs : source.length = 28) :
    ∃ t, (w.step (.arrives k control false)).got = w.got ++ [{ source := ⟨source⟩, timestamp := t, payload }] ∧ (w.step (.arrives k control false)).failed = false := by
  obtain ⟨a, ha⟩ := C97_received { source, payload, control, otherFlags := false } hp hs rfl
  obtain ⟨h1, h2⟩ := C97_whole _ _ ha
  refine ⟨a.timestamp, ?_, ?_⟩
  · simp only [Wire.step, hw, hk, ha, Bool.false_eq_true, if_false]
    simp only at h1 h2
    rw [← h1, ← h2]
  · simp only [Wire.step, hw, hk, ha, Bool.false_eq_true, if_false]

example : ∃ w : Wire, w.failed = false ∧ w.sent[0]? = some (List.replicate 28 1, [1, 2]) := ⟨{ sent := [(List.replicate 28 1, [1, 2])] }, rfl, rfl⟩

/-- **C97.**  A call that sends returns exactly if the kernel took all bytes, and is counted as a write exactly then. -/
theorem C97_send (w : Wire) (hw : w.failed = false) (payload : List UInt8) (answer : Option Nat) :
    ((w.step (.send payload answer)).failed = false ↔ answer = some payload.length) ∧
    ((w.step (.send payload answer)).writes = w.writes + 1 ↔ answer = some payload.length) := by
  cases answer with
  | none => simp [Wire.step, hw, sendReturns]
  | some n =>
    by_cases h : n = payload.length
    · simp [Wire.step, hw, sendReturns, h]
    · simp [Wire.step, hw, sendReturns, h]

/-- Two programs send; the second datagram comes first and twice. -/
example : (({} : Wire).run [.other [1] [10, 11], .other [2] [20], .arrives 1 [] false, .arrives 0 [] false, .arrives 1 [] false]).got.map (fun a => (a.source.bytes, a.payload)) =
    [([2], [20]), ([1], [10, 11]), ([2], [20])] := by decide

end Alfalfa
