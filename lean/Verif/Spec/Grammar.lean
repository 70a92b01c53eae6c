import Verif.Model.Mesh
import Mathlib.Data.Nat.Digits.Defs
/-! The OFF and OBJ notations, described without reference to any reader: words separated by blanks, numbers in the usual decimal
notation, and the lines of a file. -/
namespace City.Spec
open City

/-- White space inside a line. -/
def White (c : Char) : Prop := c = ' ' ∨ c = '\t' ∨ c = '\x0b' ∨ c = '\x0c' ∨ c = '\r'

/-- `ws` are the words of the line `t`: non empty pieces without white space, separated by white space, with white space at both ends
allowed. -/
inductive Words : Text → List Text → Prop
  | nil {b : Text} (hb : ∀ c ∈ b, White c) : Words b []
  | cons {b w r : Text} {ws : List Text} (hb : ∀ c ∈ b, White c) (hw : w ≠ []) (hn : ∀ c ∈ w, ¬ White c)
      (hs : ∀ c, r.head? = some c → White c) (hr : Words r ws) : Words (b ++ (w ++ r)) (w :: ws)

/-- The digits of the decimal notation. -/
def Digits (t : Text) : Prop := ∀ c ∈ t, c ∈ ['0', '1', '2', '3', '4', '5', '6', '7', '8', '9']

/-- The value of a string of digits. -/
def digitsValue (t : Text) : ℕ := Nat.ofDigits 10 (t.reverse.map fun c => c.toNat - '0'.toNat)

/-- `w` writes the natural number `n`. -/
structure IsNat (w : Text) (n : ℕ) : Prop where
  digits : Digits w
  some : w ≠ []
  value : digitsValue w = n

/-- A sign and its value. -/
inductive Sign : Text → ℤ → Prop
  | none : Sign [] 1
  | plus : Sign ['+'] 1
  | minus : Sign ['-'] (-1)

/-- A fractional part: nothing, or a point and digits. -/
inductive Frac : Text → Text → Prop
  | none : Frac [] []
  | point {b : Text} (h : Digits b) : Frac ('.' :: b) b

/-- An exponent part and its value. -/
inductive Expo : Text → ℤ → Prop
  | none : Expo [] 0
  | some {c : Char} {s d : Text} {v : ℤ} (hc : c = 'e' ∨ c = 'E') (hs : Sign s v) (hd : Digits d) (hne : d ≠ []) :
      Expo (c :: (s ++ d)) (v * digitsValue d)

/-- `w` writes the number `q`: sign, digits, fraction, exponent, with one digit at least before the exponent. -/
inductive IsDec : Text → ℚ → Prop
  | mk {s a f b x : Text} {v e : ℤ} (hs : Sign s v) (ha : Digits a) (hf : Frac f b) (hx : Expo x e) (hne : a ≠ [] ∨ b ≠ []) :
      IsDec (s ++ (a ++ (f ++ x))) (v * ((digitsValue a : ℚ) + digitsValue b / 10 ^ b.length) * (10 : ℚ) ^ e)

/-- The lines of a file: each ends with a line feed, the last one may go without. -/
inductive Lines : Text → List Text → Prop
  | nil : Lines [] []
  | last {l : Text} (h : '\n' ∉ l) (hne : l ≠ []) : Lines l [l]
  | cons {l t : Text} {ls : List Text} (h : '\n' ∉ l) (ht : Lines t ls) : Lines (l ++ '\n' :: t) (l :: ls)

/-- The line writes the natural numbers `ns`. -/
def NatLine (l : Text) (ns : List ℕ) : Prop := ∃ ws, Words l ws ∧ List.Forall₂ IsNat ws ns

/-- The line writes the numbers `qs`. -/
def DecLine (l : Text) (qs : List ℚ) : Prop := ∃ ws, Words l ws ∧ List.Forall₂ IsDec ws qs

/-- The text is an OFF file with these points and faces: comments, the word OFF, the counts, one line per point, one line per face. -/
def OffText (t : Text) (ps : List (V3 ℚ)) (fs : List (List ℕ)) : Prop :=
  ∃ ls l1 pl fl, Lines t ls ∧ [] ∉ ls ∧ ls.filter (fun l => l.head? ≠ some '#') = ['O', 'F', 'F'] :: l1 :: (pl ++ fl) ∧
    NatLine l1 [ps.length, fs.length, 0] ∧ List.Forall₂ (fun l p => DecLine l [p.x, p.y, p.z]) pl ps ∧
    List.Forall₂ (fun l f => NatLine l (f.length :: f)) fl fs

/-- `w` writes the unsigned 64 bit number `n`: an optional sign, then digits of a value below 2^64; a minus counts modulo 2^64. -/
inductive IsIndex : Text → ℕ → Prop
  | mk {s d : Text} {v : ℤ} {k n : ℕ} (hs : Sign s v) (hd : IsNat d k) (hk : k < 2 ^ 64) (hn : (n : ℤ) = v * k % 2 ^ 64) : IsIndex (s ++ d) n

/-- `w` writes no unsigned 64 bit number: its value is too large, or there is no digit after the sign. -/
inductive NoIndex : Text → Prop
  | large {s d : Text} {v : ℤ} {k : ℕ} (hs : Sign s v) (hd : IsNat d k) (hk : 2 ^ 64 ≤ k) : NoIndex (s ++ d)
  | other {s r : Text} {v : ℤ} (hs : Sign s v) (hr : ∀ c, r.head? = some c → ¬ Digits [c] ∧ c ≠ '+' ∧ c ≠ '-') : NoIndex (s ++ r)

/-- The line begins with the unsigned numbers `ns`, and they end with the line or at a word that is none. -/
def IndexLine (l : Text) (ns : List ℕ) : Prop :=
  ∃ ws us, Words l (ws ++ us) ∧ List.Forall₂ IsIndex ws ns ∧ ∀ u, us.head? = some u → NoIndex u

/-- The text has the form of an OFF file, less strictly: anything may follow the three numbers of a point, and the indexes of a face may be
fewer than its degree, negative, or followed by something else. -/
def LooseOff (t : Text) (ps : List (V3 ℚ)) (fs : List (ℕ × List ℕ)) : Prop :=
  ∃ ls l1 pl fl, Lines t ls ∧ [] ∉ ls ∧ ls.filter (fun l => l.head? ≠ some '#') = ['O', 'F', 'F'] :: l1 :: (pl ++ fl) ∧
    NatLine l1 [ps.length, fs.length, 0] ∧
    List.Forall₂ (fun l p => ∃ ws us, Words l (ws ++ us) ∧ List.Forall₂ IsDec ws [p.x, p.y, p.z]) pl ps ∧
    List.Forall₂ (fun l f => IndexLine l (f.1 :: f.2)) fl fs

/-- The text is an OBJ file with these vertices and objects: lines `v x y z`, then for each object a line `o name` and lines `f i j k ...`
with the numbers of the vertices, counted from 1; empty lines and comments anywhere. -/
def ObjText (t : Text) (vs : List (V3 ℚ)) (objs : List (Text × List (List ℕ))) : Prop :=
  ∃ (ls vl : List Text) (secs : List (Text × List Text)), Lines t ls ∧
    ls.filter (fun l => l ≠ [] ∧ l.head? ≠ some '#') = vl ++ secs.flatMap (fun s => s.1 :: s.2) ∧
    List.Forall₂ (fun l p => ∃ w r, White w ∧ l = 'v' :: w :: r ∧ DecLine r [p.x, p.y, p.z]) vl vs ∧
    List.Forall₂ (fun s o => (∃ w r, White w ∧ s.1 = 'o' :: w :: r ∧ Words r [o.1]) ∧
      List.Forall₂ (fun l is => ∃ w r, White w ∧ l = 'f' :: w :: r ∧ NatLine r is) s.2 o.2) secs objs

end City.Spec
