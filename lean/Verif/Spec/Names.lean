/-! How the C library writes an address of IPv6 (RFC 4291, section 2.2, with the choices of `inet_ntop`). -/

namespace Alfalfa

def hexText (n : Nat) : List Char := Nat.toDigits 16 n
def decText (n : Nat) : List Char := Nat.toDigits 10 n

/-- The words, with colons between them. -/
def colons : List Nat → List Char
  | [] => []
  | [w] => hexText w
  | w :: v :: ws => hexText w ++ ':' :: colons (v :: ws)

/-- The first of the longest runs of two or more zero words: where it begins and how long it is. -/
def zeroRun (ws : List Nat) : Option (Nat × Nat) :=
  (List.range ws.length).foldl (fun best i =>
    let n := ((ws.drop i).takeWhile (· == 0)).length
    if n < 2 then best
    else match best with
      | none => some (i, n)
      | some (j, m) => if m < n then some (i, n) else some (j, m)) none

/-- Two words as four bytes with dots. -/
def dotted (u v : Nat) : List Char :=
  decText (u / 256) ++ '.' :: (decText (u % 256) ++ '.' :: (decText (v / 256) ++ '.' :: decText (v % 256)))

/-- The text of eight words of 16 bits: the run of zeros is left out, and the last two words are written with dots if the address stands for one of IPv4. -/
def ipText (ws : List Nat) : List Char :=
  match zeroRun ws with
  | none => colons ws
  | some (i, n) =>
    if i = 0 ∧ n = 6 then "::".toList ++ dotted (ws.getD 6 0) (ws.getD 7 0)
    else if i = 0 ∧ n = 5 ∧ ws.getD 5 0 = 0xffff then "::ffff:".toList ++ dotted (ws.getD 6 0) (ws.getD 7 0)
    else colons (ws.take i) ++ "::".toList ++ colons (ws.drop (i + n))

/-- What a text without two colons in a row must have to be an address: none for IPv4; six or seven for IPv6. -/
def CouldBeAddress (s : List Char) : Prop := ':' ∉ s ∨ [':', ':'] <:+: s ∨ 6 ≤ s.count ':'

end Alfalfa
