import Verif.Model.Ident
import Verif.Lemmas.Core

/-!
# C36: target identification from the ZAID follows the MCNP rules

The specification: a nuclide (Z, A, S) is written in a ZAID as the decimal number `1000 Z + A'`
with `A' = A` in the ground state and `A' = A + 300 + 100 S` in the isomeric state S (MCNP), or as
`1000000 S + 1000 Z + A` (SZAID); the roles of Am-242 and Am-242m1 are exchanged in both.
-/

namespace ACE.Props
open ACE Ident

/-- The value of a string of decimal digits. -/
def decimal (cs : List Char) : Nat := cs.foldl (fun v c => 10 * v + (c.toNat - '0'.toNat)) 0

/-- The exchange of Am-242 and Am-242m1. -/
def amSwap (z a s : Nat) : Nat :=
  if z = 95 ∧ a = 242 then (match s with | 0 => 1 | 1 => 0 | s + 2 => s + 2) else s

/-- The MCNP encoding of an isomer in the mass number. -/
def mcnpMass (a s : Nat) : Nat := if s = 0 then a else a + 300 + 100 * s
/-- The ZA number of a nuclide. -/
def mcnpZA (z a s : Nat) : Nat := 1000 * z + mcnpMass a (amSwap z a s)
/-- The SZA number of a nuclide. -/
def mcnpSZA (z a s : Nat) : Nat := 1000000 * amSwap z a s + 1000 * z + a

/-- A mass number within reach of MCNP's approximate mass `m` of the element. -/
def Plausible (m a : Nat) : Prop := 0 < a ∧ (a ≤ 100 ∨ a ≤ m + 40) ∧ m < a + 60

/-- The approximate mass is `( 0.0064 z + 2.0009 ) z - 0.281` rounded to the nearest integer. -/
theorem estimate_nearest (z : Nat) :
    20000 * estimate z ≤ 2 * (64 * z * z + 20009 * z + 5000 - 2810) ∧
    2 * (64 * z * z + 20009 * z + 5000 - 2810) < 20000 * (estimate z + 1) := by
  unfold estimate; omega

/-- No halfway case among the Z numbers that can be stored. -/
theorem estimate_not_halfway : ∀ z < 1000, (64 * z * z + 20009 * z) % 10000 ≠ 7810 := by
  decide +kernel

theorem americium_eq (z a s : Nat) : americium z a s = amSwap z a s := by
  unfold americium amSwap
  rcases s with _ | _ | s <;> by_cases h : z = 95 ∧ a = 242 <;> simp [h]
  all_goals (intro h1 h2; exact absurd ⟨h1, h2⟩ h)

theorem amSwap_amSwap (z a s : Nat) : amSwap z a (amSwap z a s) = s := by
  unfold amSwap
  by_cases h : z = 95 ∧ a = 242
  · rcases s with _ | _ | s <;> simp [h]
  · simp [h]

theorem lower_eq (m a s k : Nat) (ha : a ≤ 100 ∨ a ≤ m + 40) (h0 : 0 < a) (hm : m < a + 60) :
    lower m (a + 100 * k) s = (a, s + k) := by
  induction k generalizing s with
  | zero =>
    rw [lower, if_neg (by omega)]; simp
  | succ k ih =>
    rw [lower, if_pos (by omega)]
    have e : a + 100 * (k + 1) - 100 = a + 100 * k := by omega
    rw [e, ih]
    congr 1
    omega

theorem unfold_mcnp (m a s : Nat) (h : Plausible m a) :
    unfoldIsomer m (mcnpMass a s) 0 = (a, s) := by
  obtain ⟨h0, h1, h2⟩ := h
  unfold unfoldIsomer mcnpMass
  rcases s with _ | s
  · rw [if_neg (by simp only [if_true]; omega)]; rfl
  · have : ¬ (s + 1 = 0) := by omega
    simp only [if_neg this]
    rw [if_pos (by omega)]
    have e : a + 300 + 100 * (s + 1) - 400 = a + 100 * s := by omega
    rw [e, lower_eq m a 1 s h1 h0 h2, Nat.add_comm 1 s]

/-- The MCNP encoding is undone. -/
theorem C36_derive (z a s : Nat) (hz : z < 999) (hp : Plausible (estimate z) a)
    (hm : mcnpMass a (amSwap z a s) < 1000) : derive (mcnpZA z a s) = (s, z, a) := by
  unfold derive mcnpZA
  have e1 : (1000 * z + mcnpMass a (amSwap z a s)) % 1000 = mcnpMass a (amSwap z a s) := by omega
  have e2 : (1000 * z + mcnpMass a (amSwap z a s) - mcnpMass a (amSwap z a s)) / 1000 = z := by omega
  simp only [e1, e2]
  rw [if_neg (by omega : ¬ z > 999)]
  simp only
  rw [if_pos (by omega), unfold_mcnp _ _ _ hp]
  simp only [americium_eq, amSwap_amSwap]

/-- The SZAID encoding is undone. -/
theorem C36_derive_szaid (z a s : Nat) (hz : z < 999) (ha : a < 1000)
    (hp : ¬ (a > 400 ∧ a > estimate z + 40)) : derive (mcnpSZA z a s) = (s, z, a) := by
  unfold derive mcnpSZA
  have e1 : (1000000 * amSwap z a s + 1000 * z + a) % 1000 = a := by omega
  have e2 : (1000000 * amSwap z a s + 1000 * z + a - a) / 1000 = 1000 * amSwap z a s + z := by omega
  simp only [e1, e2]
  have e3 : (if 1000 * amSwap z a s + z > 999 then
      ((1000 * amSwap z a s + z) % 1000,
        (1000 * amSwap z a s + z - (1000 * amSwap z a s + z) % 1000) / 1000)
      else (1000 * amSwap z a s + z, 0)) = (z, amSwap z a s) := by
    have e4 : (1000 * amSwap z a s + z) % 1000 = z := by omega
    split
    · rw [e4]; congr 1; omega
    · have : amSwap z a s = 0 := by omega
      rw [this]; simp
  rw [e3]
  simp only
  rw [if_pos (by omega)]
  unfold unfoldIsomer
  rw [if_neg hp]
  simp only [americium_eq, amSwap_amSwap]

/-- Z = 999 is left alone. -/
theorem C36_derive_unphysical (a s : Nat) (ha : a < 1000) :
    derive (1000000 * s + 999000 + a) = (s, 999, a) := by
  unfold derive
  have e1 : (1000000 * s + 999000 + a) % 1000 = a := by omega
  have e2 : (1000000 * s + 999000 + a - a) / 1000 = 1000 * s + 999 := by omega
  simp only [e1, e2]
  have e3 : (if 1000 * s + 999 > 999 then
      ((1000 * s + 999) % 1000, (1000 * s + 999 - (1000 * s + 999) % 1000) / 1000)
      else (1000 * s + 999, 0)) = (999, s) := by
    have e4 : (1000 * s + 999) % 1000 = 999 := by omega
    split
    · have e5 : (1000 * s + 999 - 999) / 1000 = s := by omega
      rw [e4, e5]
    · have : s = 0 := by omega
      subst this; rfl
  rw [e3]
  simp

theorem digits_eq (cs : List Char) (v : Nat) (h : ∀ c ∈ cs, c.isDigit) :
    digits cs v = cs.foldl (fun v c => 10 * v + (c.toNat - '0'.toNat)) v := by
  induction cs generalizing v with
  | nil => rfl
  | cons c cs ih =>
    rw [digits, if_pos (h c (by simp))]
    simp only [List.foldl_cons]
    exact ih _ (fun c hc => h c (by simp [hc]))

theorem not_space_of_digit (c : Char) (h : c.isDigit) : isSpace c = false := by
  unfold isSpace
  simp only [decide_eq_false_iff_not]
  rintro (rfl | rfl | rfl | rfl | rfl | rfl) <;> simp [Char.isDigit] at h

theorem stoi_digits (cs : List Char) (h : ∀ c ∈ cs, c.isDigit) (hne : cs ≠ [])
    (hb : decimal cs ≤ 2147483647) : stoi cs = .ok (decimal cs : Int) := by
  obtain ⟨c, cs, rfl⟩ : ∃ c cs', cs = c :: cs' := by
    cases cs with
    | nil => exact absurd rfl hne
    | cons c cs => exact ⟨c, cs, rfl⟩
  have hc := h c (by simp)
  have hd : digits (c :: cs) 0 = decimal (c :: cs) := digits_eq _ _ h
  have hn : number false (c :: cs) = .ok (decimal (c :: cs) : Int) := by
    unfold number
    simp only [hc, hd, if_true]
    have e : (if false = true then -(decimal (c :: cs) : Int) else (decimal (c :: cs) : Int)) =
        (decimal (c :: cs) : Int) := rfl
    rw [e, if_pos (by omega)]
  unfold stoi
  rw [List.dropWhile_cons_of_neg (by simp [not_space_of_digit c hc])]
  split
  · rename_i heq
    injection heq with h1 _; subst h1; simp [Char.isDigit] at hc
  · rename_i heq
    injection heq with h1 _; subst h1; simp [Char.isDigit] at hc
  · exact hn

theorem target_append (cs suffix : List Char) (h : suffix.length = 4) :
    target (cs ++ suffix) = cs := by
  unfold target
  rw [if_neg (by simp; omega)]
  simp [h]

/-- What a table of 16 NXS values looks like after the identification. -/
theorem setSZA_of (d : TableData) (hd : d.Sized) (zaid : List Char) (n : Nat) (s z a : Nat)
    (h9 : d.NXS 9 = .ok 0) (h10 : d.NXS 10 = .ok 0) (h11 : d.NXS 11 = .ok 0)
    (hs : stoi (target zaid) = .ok (n : Int)) (hn : n ≤ 2147483647) (he : derive n = (s, z, a)) :
    d.setSZA zaid = .ok { d with nxs := ((d.nxs.set 8 s).set 9 z).set 10 a } := by
  unfold TableData.setSZA
  simp only [h9, h10, h11, ok_bind, hs, and_self, if_true]
  have e : ((n : Int) % 4294967296).toNat = n := by omega
  rw [e, he]
  simp [TableData.setNXS, TableData.verifyIndex, hd.nxs]

theorem NXS_get (d : TableData) (i : Nat) (v : Int) (h : d.nxs[i]? = some v) :
    d.NXS (i + 1) = .ok v := by
  have hl : i < d.nxs.length := by
    obtain ⟨h, _⟩ := List.getElem?_eq_some_iff.mp h; exact h
  unfold TableData.NXS TableData.fetch TableData.verifyIndex
  rw [if_neg (by omega), ok_bind]
  simp [h]

theorem setSZA_result (d : TableData) (hd : d.Sized) (zaid : List Char) (n : Nat) (s z a : Nat)
    (h9 : d.NXS 9 = .ok 0) (h10 : d.NXS 10 = .ok 0) (h11 : d.NXS 11 = .ok 0)
    (hs : stoi (target zaid) = .ok (n : Int)) (hn : n ≤ 2147483647) (he : derive n = (s, z, a)) :
    ∃ d', d.setSZA zaid = .ok d' ∧ d'.NXS 9 = .ok (s : Int) ∧ d'.NXS 10 = .ok (z : Int) ∧
      d'.NXS 11 = .ok (a : Int) ∧ d'.Sized ∧ d'.iz = d.iz ∧ d'.aw = d.aw ∧ d'.jxs = d.jxs ∧
      d'.xss = d.xss ∧ ∀ i, i ≠ 9 → i ≠ 10 → i ≠ 11 → d'.NXS i = d.NXS i := by
  have hl := hd.nxs
  refine ⟨_, setSZA_of d hd zaid n s z a h9 h10 h11 hs hn he, NXS_get _ 8 _ ?_, NXS_get _ 9 _ ?_,
    NXS_get _ 10 _ ?_, ⟨hd.iz, hd.aw, by simp [hl], hd.jxs⟩, rfl, rfl, rfl, rfl, ?_⟩
  · simp [hl]
  · simp [hl]
  · simp [hl]
  · intro i g9 g10 g11
    unfold TableData.NXS TableData.fetch TableData.verifyIndex
    simp only [List.length_set]
    by_cases hi : i < 1 ∨ i > d.nxs.length
    · rw [if_pos hi]; rfl
    · rw [if_neg hi]
      simp only [ok_bind]
      rw [List.getElem?_set_ne (by omega), List.getElem?_set_ne (by omega),
        List.getElem?_set_ne (by omega)]

/-- A table without stored values, and with the ZAID of a nuclide in the MCNP convention (decimal
digits and a suffix of four characters), gets the S, Z and A of that nuclide; nothing else is
changed. -/
theorem C36_zaid (d : TableData) (hd : d.Sized) (cs suffix : List Char) (z a s : Nat)
    (h0 : d.NXS 9 = .ok 0 ∧ d.NXS 10 = .ok 0 ∧ d.NXS 11 = .ok 0)
    (hdig : ∀ c ∈ cs, c.isDigit) (hne : cs ≠ []) (hsuf : suffix.length = 4)
    (hv : decimal cs = mcnpZA z a s) (hz : z < 999) (hp : Plausible (estimate z) a)
    (hm : mcnpMass a (amSwap z a s) < 1000) :
    ∃ d', d.setSZA (cs ++ suffix) = .ok d' ∧ d'.NXS 9 = .ok (s : Int) ∧ d'.NXS 10 = .ok (z : Int) ∧
      d'.NXS 11 = .ok (a : Int) ∧ d'.Sized ∧ d'.iz = d.iz ∧ d'.aw = d.aw ∧ d'.jxs = d.jxs ∧
      d'.xss = d.xss ∧ ∀ i, i ≠ 9 → i ≠ 10 → i ≠ 11 → d'.NXS i = d.NXS i := by
  have hb : mcnpZA z a s ≤ 2147483647 := by unfold mcnpZA; omega
  refine setSZA_result d hd _ (mcnpZA z a s) s z a h0.1 h0.2.1 h0.2.2 ?_ hb
    (C36_derive z a s hz hp hm)
  rw [target_append _ _ hsuf, stoi_digits cs hdig hne (by omega), hv]

/-- The same with the SZAID of a nuclide. -/
theorem C36_szaid (d : TableData) (hd : d.Sized) (cs suffix : List Char) (z a s : Nat)
    (h0 : d.NXS 9 = .ok 0 ∧ d.NXS 10 = .ok 0 ∧ d.NXS 11 = .ok 0)
    (hdig : ∀ c ∈ cs, c.isDigit) (hne : cs ≠ []) (hsuf : suffix.length = 4)
    (hv : decimal cs = mcnpSZA z a s) (hz : z < 999) (ha : a < 1000)
    (hp : ¬ (a > 400 ∧ a > estimate z + 40)) (hs : s < 2000) :
    ∃ d', d.setSZA (cs ++ suffix) = .ok d' ∧ d'.NXS 9 = .ok (s : Int) ∧ d'.NXS 10 = .ok (z : Int) ∧
      d'.NXS 11 = .ok (a : Int) ∧ d'.Sized ∧ d'.iz = d.iz ∧ d'.aw = d.aw ∧ d'.jxs = d.jxs ∧
      d'.xss = d.xss ∧ ∀ i, i ≠ 9 → i ≠ 10 → i ≠ 11 → d'.NXS i = d.NXS i := by
  have hb : mcnpSZA z a s ≤ 2147483647 := by
    unfold mcnpSZA
    have : amSwap z a s < 2000 := by
      unfold amSwap; split
      · rcases s with _ | _ | s <;> simp <;> omega
      · omega
    omega
  refine setSZA_result d hd _ (mcnpSZA z a s) s z a h0.1 h0.2.1 h0.2.2 ?_ hb
    (C36_derive_szaid z a s hz ha hp)
  rw [target_append _ _ hsuf, stoi_digits cs hdig hne (by omega), hv]

/-- Stored values are never overwritten, whatever the ZAID. -/
theorem C36_stored (d : TableData) (hd : d.Sized) (zaid : List Char)
    (h : d.NXS 9 ≠ .ok 0 ∨ d.NXS 10 ≠ .ok 0 ∨ d.NXS 11 ≠ .ok 0) : d.setSZA zaid = .ok d := by
  have hl := hd.nxs
  have g : ∀ i, i < 16 → ∃ v, d.NXS (i + 1) = .ok v := fun i hi =>
    ⟨_, NXS_get d i _ (List.getElem?_eq_getElem (by omega : i < d.nxs.length))⟩
  obtain ⟨a, ha⟩ := g 8 (by omega)
  obtain ⟨b, hb⟩ := g 9 (by omega)
  obtain ⟨c, hc⟩ := g 10 (by omega)
  unfold TableData.setSZA
  simp only [ha, hb, hc, ok_bind] at h ⊢
  rw [if_neg]
  · rfl
  · rintro ⟨rfl, rfl, rfl⟩
    simp at h

/-- A ZAID without a number is refused with an exception. -/
theorem C36_not_a_number (d : TableData) (zaid : List Char) (c : Char) (cs : List Char)
    (h0 : d.NXS 9 = .ok 0 ∧ d.NXS 10 = .ok 0 ∧ d.NXS 11 = .ok 0)
    (ht : target zaid = c :: cs) (h1 : c.isDigit = false) (h2 : isSpace c = false)
    (h3 : c ≠ '-') (h4 : c ≠ '+') : d.setSZA zaid = .error .thrown := by
  unfold TableData.setSZA
  simp only [h0.1, h0.2.1, h0.2.2, ok_bind, and_self, if_true, ht]
  have : stoi (c :: cs) = .error .thrown := by
    unfold stoi
    rw [List.dropWhile_cons_of_neg (by simp [h2])]
    split
    · rename_i heq; injection heq with h _; exact absurd h h3
    · rename_i heq; injection heq with h _; exact absurd h h4
    · simp [number, h1]
  rw [this]; rfl

/-- A ZAID as it may stand in a header: blanks, perhaps a plus sign, the decimal digits `cs`, then
something that does not begin with a digit and is at least four characters long (".80c", or the
".800nc" of a version 2 header). -/
def ZaidText (zaid cs : List Char) : Prop :=
  ∃ blanks sign rest suffix, zaid = blanks ++ sign ++ cs ++ rest ++ suffix ∧
    (∀ c ∈ blanks, c = ' ' ∨ c = '\t' ∨ c = '\n' ∨ c = '\x0b' ∨ c = '\x0c' ∨ c = '\r') ∧
    (sign = [] ∨ sign = ['+']) ∧ (∀ c ∈ rest.head?, c.isDigit = false) ∧ suffix.length = 4

namespace C36

theorem digits_rest (cs rest : List Char) (v : Nat) (h : ∀ c ∈ cs, c.isDigit)
    (hr : ∀ c ∈ rest.head?, c.isDigit = false) :
    digits (cs ++ rest) v = cs.foldl (fun v c => 10 * v + (c.toNat - '0'.toNat)) v := by
  induction cs generalizing v with
  | nil =>
    cases rest with
    | nil => rfl
    | cons c rest =>
      rw [List.nil_append, digits, if_neg (by simp [hr c (by simp)])]; rfl
  | cons c cs ih =>
    rw [List.cons_append, digits, if_pos (h c (by simp))]
    simp only [List.foldl_cons]
    exact ih _ (fun c hc => h c (by simp [hc]))

theorem dropBlanks (blanks cs : List Char) (h : ∀ c ∈ blanks, isSpace c)
    (hc : ∀ c ∈ cs.head?, isSpace c = false) : (blanks ++ cs).dropWhile isSpace = cs := by
  induction blanks with
  | nil =>
    cases cs with
    | nil => rfl
    | cons c cs => exact List.dropWhile_cons_of_neg (by simp [hc c (by simp)])
  | cons b blanks ih =>
    rw [List.cons_append, List.dropWhile_cons_of_pos (h b (by simp))]
    exact ih (fun c hc => h c (by simp [hc]))

theorem number_rest (neg : Bool) (cs rest : List Char) (h : ∀ c ∈ cs, c.isDigit) (hne : cs ≠ [])
    (hr : ∀ c ∈ rest.head?, c.isDigit = false) :
    number neg (cs ++ rest) =
      if -2147483648 ≤ (if neg then -(decimal cs : Int) else (decimal cs : Int)) ∧
        (if neg then -(decimal cs : Int) else (decimal cs : Int)) ≤ 2147483647 then
        .ok (if neg then -(decimal cs : Int) else (decimal cs : Int)) else .error .thrown := by
  have hd : digits (cs ++ rest) 0 = decimal cs := digits_rest cs rest 0 h hr
  obtain ⟨c, cs, rfl⟩ : ∃ c cs', cs = c :: cs' := by
    cases cs with
    | nil => exact absurd rfl hne
    | cons c cs => exact ⟨c, cs, rfl⟩
  have hc := h c (by simp)
  rw [List.cons_append] at hd ⊢
  unfold number
  simp only [hc, hd, if_true]

theorem stoi_text (blanks sign cs rest : List Char)
    (hb : ∀ c ∈ blanks, c = ' ' ∨ c = '\t' ∨ c = '\n' ∨ c = '\x0b' ∨ c = '\x0c' ∨ c = '\r')
    (hs : sign = [] ∨ sign = ['+']) (h : ∀ c ∈ cs, c.isDigit) (hne : cs ≠ [])
    (hr : ∀ c ∈ rest.head?, c.isDigit = false) :
    stoi (blanks ++ sign ++ cs ++ rest) =
      if decimal cs ≤ 2147483647 then .ok (decimal cs : Int) else .error .thrown := by
  have hb' : ∀ c ∈ blanks, isSpace c := fun c hc => by
    unfold isSpace; exact decide_eq_true (hb c hc)
  have hn := number_rest false cs rest h hne hr
  have e : (if false = true then -(decimal cs : Int) else (decimal cs : Int)) = decimal cs := rfl
  rw [e] at hn
  have hn' : number false (cs ++ rest) =
      if decimal cs ≤ 2147483647 then .ok (decimal cs : Int) else .error .thrown := by
    rw [hn]
    by_cases g : decimal cs ≤ 2147483647
    · rw [if_pos g, if_pos (by omega)]
    · rw [if_neg g, if_neg (by omega)]
  obtain ⟨c, cs', rfl⟩ : ∃ c cs', cs = c :: cs' := by
    cases cs with
    | nil => exact absurd rfl hne
    | cons c cs => exact ⟨c, cs, rfl⟩
  have hc := h c (by simp)
  unfold stoi
  rw [List.append_assoc, List.append_assoc]
  rcases hs with rfl | rfl
  · rw [List.nil_append, dropBlanks _ _ hb' (by
      intro d hd; simp at hd; subst hd; exact not_space_of_digit _ hc)]
    rw [List.cons_append] at hn' ⊢
    split
    · rename_i heq
      injection heq with h1 _; subst h1; simp [Char.isDigit] at hc
    · rename_i heq
      injection heq with h1 _; subst h1; simp [Char.isDigit] at hc
    · exact hn'
  · rw [dropBlanks _ _ hb' (by intro d hd; simp at hd; subst hd; decide)]
    exact hn'

end C36

/-- The identification does not depend on blanks or a plus sign before the digits, nor on the
length of the suffix: the ".800nc" of a version 2 header is as good as ".80c". The number is that
of a nuclide in either convention. -/
theorem C36_written (d : TableData) (hd : d.Sized) (zaid cs : List Char) (z a s : Nat)
    (h0 : d.NXS 9 = .ok 0 ∧ d.NXS 10 = .ok 0 ∧ d.NXS 11 = .ok 0)
    (ht : ZaidText zaid cs) (hdig : ∀ c ∈ cs, c.isDigit) (hne : cs ≠ []) (hz : z < 999)
    (hv : (decimal cs = mcnpZA z a s ∧ Plausible (estimate z) a ∧
        mcnpMass a (amSwap z a s) < 1000) ∨
      (decimal cs = mcnpSZA z a s ∧ a < 1000 ∧ ¬ (a > 400 ∧ a > estimate z + 40) ∧ s < 2000)) :
    ∃ d', d.setSZA zaid = .ok d' ∧ d'.NXS 9 = .ok (s : Int) ∧ d'.NXS 10 = .ok (z : Int) ∧
      d'.NXS 11 = .ok (a : Int) ∧ d'.Sized ∧ d'.iz = d.iz ∧ d'.aw = d.aw ∧ d'.jxs = d.jxs ∧
      d'.xss = d.xss ∧ ∀ i, i ≠ 9 → i ≠ 10 → i ≠ 11 → d'.NXS i = d.NXS i := by
  obtain ⟨blanks, sign, rest, suffix, rfl, hb, hs, hr, hsuf⟩ := ht
  have hst := C36.stoi_text blanks sign cs rest hb hs hdig hne hr
  rcases hv with ⟨hv, hp, hm⟩ | ⟨hv, ha, hp, hs'⟩
  · have hb : mcnpZA z a s ≤ 2147483647 := by unfold mcnpZA; omega
    refine setSZA_result d hd _ (mcnpZA z a s) s z a h0.1 h0.2.1 h0.2.2 ?_ hb
      (C36_derive z a s hz hp hm)
    rw [target_append _ _ hsuf, hst, hv, if_pos hb]
  · have hb : mcnpSZA z a s ≤ 2147483647 := by
      unfold mcnpSZA
      have : amSwap z a s < 2000 := by
        unfold amSwap; split
        · rcases s with _ | _ | s <;> simp <;> omega
        · omega
      omega
    refine setSZA_result d hd _ (mcnpSZA z a s) s z a h0.1 h0.2.1 h0.2.2 ?_ hb
      (C36_derive_szaid z a s hz ha hp)
    rw [target_append _ _ hsuf, hst, hv, if_pos hb]

/-- A number too large for an `int` is refused with an exception. -/
theorem C36_too_large (d : TableData) (zaid cs : List Char)
    (h0 : d.NXS 9 = .ok 0 ∧ d.NXS 10 = .ok 0 ∧ d.NXS 11 = .ok 0)
    (ht : ZaidText zaid cs) (hdig : ∀ c ∈ cs, c.isDigit) (hne : cs ≠ [])
    (hl : 2147483647 < decimal cs) : d.setSZA zaid = .error .thrown := by
  obtain ⟨blanks, sign, rest, suffix, rfl, hb, hs, hr, hsuf⟩ := ht
  unfold TableData.setSZA
  simp only [h0.1, h0.2.1, h0.2.2, ok_bind, and_self, if_true]
  rw [target_append _ _ hsuf, C36.stoi_text blanks sign cs rest hb hs hdig hne hr,
    if_neg (by omega)]
  rfl

/-- A text of fewer than four characters has no suffix: its digits are the number ("1c" is the neutron). -/
theorem C36_short (d : TableData) (hd : d.Sized) (cs rest : List Char) (z a s : Nat)
    (h0 : d.NXS 9 = .ok 0 ∧ d.NXS 10 = .ok 0 ∧ d.NXS 11 = .ok 0)
    (hl : (cs ++ rest).length < 4) (hdig : ∀ c ∈ cs, c.isDigit) (hne : cs ≠ []) (hr : ∀ c ∈ rest.head?, c.isDigit = false)
    (hv : decimal cs = mcnpZA z a s) (hz : z < 999) (hp : Plausible (estimate z) a)
    (hm : mcnpMass a (amSwap z a s) < 1000) :
    ∃ d', d.setSZA (cs ++ rest) = .ok d' ∧ d'.NXS 9 = .ok (s : Int) ∧ d'.NXS 10 = .ok (z : Int) ∧
      d'.NXS 11 = .ok (a : Int) ∧ d'.Sized ∧ d'.iz = d.iz ∧ d'.aw = d.aw ∧ d'.jxs = d.jxs ∧
      d'.xss = d.xss ∧ ∀ i, i ≠ 9 → i ≠ 10 → i ≠ 11 → d'.NXS i = d.NXS i := by
  have hb : mcnpZA z a s ≤ 2147483647 := by unfold mcnpZA; omega
  refine setSZA_result d hd _ (mcnpZA z a s) s z a h0.1 h0.2.1 h0.2.2 ?_ hb (C36_derive z a s hz hp hm)
  have ht : target (cs ++ rest) = [] ++ [] ++ cs ++ rest := by
    unfold target
    rw [if_pos hl, List.nil_append, List.nil_append]
  rw [ht, C36.stoi_text [] [] cs rest (by simp) (.inl rfl) hdig hne hr, hv, if_pos hb]

/-- A negative number is not refused: it becomes a large unsigned number, and some target is
derived from it. "-1001.80c" is taken for Z = 966, A = 295 in the state S = 4294. -/
theorem C36_negative_false :
    ¬ ∀ (d : TableData) (cs suffix : List Char), d.Sized →
      (d.NXS 9 = .ok 0 ∧ d.NXS 10 = .ok 0 ∧ d.NXS 11 = .ok 0) → (∀ c ∈ cs, c.isDigit) → cs ≠ [] →
      suffix.length = 4 → d.setSZA ('-' :: cs ++ suffix) = .error .thrown := by
  intro h
  have := h ⟨List.replicate 16 0, List.replicate 16 (Dbl.ofNat 0), List.replicate 16 0,
    List.replicate 32 0, []⟩ "1001".toList ".80c".toList ⟨rfl, rfl, rfl, rfl⟩ (by decide)
    (by decide) (by decide) (by decide)
  revert this
  decide +kernel

-- U-238, U-235m1 and the two Americium-242
example : Plausible (estimate 92) 235 ∧ mcnpMass 235 (amSwap 92 235 1) < 1000 ∧
    mcnpZA 92 235 1 = 92635 ∧ mcnpZA 95 242 0 = 95642 ∧ mcnpZA 95 242 1 = 95242 ∧
    mcnpSZA 95 242 0 = 1095242 := by
  unfold Plausible; decide +kernel
example : derive 92635 = (1, 92, 235) ∧ derive 95642 = (0, 95, 242) ∧ derive 95242 = (1, 95, 242) ∧
    derive 1001 = (0, 1, 1) ∧ derive 47510 = (1, 47, 110) := by
  simp [derive, unfoldIsomer, lower, estimate, americium]
example : decimal "92635".toList = 92635 ∧ (∀ c ∈ "92635".toList, c.isDigit) := by decide +kernel

/-- The hypotheses of the theorems are met: uranium 235 in its first excited state, americium 242
and a table whose NXS array is empty or already holds the target. -/
private abbrev exData (s z a : Int) : TableData :=
  ⟨List.replicate 16 0, List.replicate 16 (Dbl.ofNat 0),
    List.replicate 8 0 ++ [s, z, a] ++ List.replicate 5 0, List.replicate 32 0, []⟩
example := C36_derive 92 235 1 (by decide) (by unfold Plausible; decide +kernel) (by decide +kernel)
example := C36_derive_szaid 95 242 1 (by decide) (by decide) (by decide)
example := C36_derive_unphysical 235 1 (by decide)
example := C36_zaid (exData 0 0 0) ⟨rfl, rfl, rfl, rfl⟩ "92635".toList ".80c".toList 92 235 1 (by decide)
  (by decide +kernel) (by decide) (by decide) (by decide +kernel) (by decide)
  (by unfold Plausible; decide +kernel) (by decide +kernel)
example := C36_szaid (exData 0 0 0) ⟨rfl, rfl, rfl, rfl⟩ "1092235".toList ".80c".toList 92 235 1 (by decide)
  (by decide +kernel) (by decide) (by decide) (by decide +kernel) (by decide) (by decide) (by decide) (by decide)
example := C36_stored (exData 1 95 242) ⟨rfl, rfl, rfl, rfl⟩ "92635.80c".toList (by decide)
example := C36_not_a_number (exData 0 0 0) "lwtr.10t".toList 'l' "wtr".toList (by decide) (by decide +kernel) (by decide)
  (by decide) (by decide) (by decide)
example := C36_written (exData 0 0 0) ⟨rfl, rfl, rfl, rfl⟩ "  +95642.800nc".toList "95642".toList 95 242 0
  (by decide) ⟨"  ".toList, "+".toList, ".8".toList, "00nc".toList, by decide +kernel, by decide,
    by decide, by decide, by decide⟩ (by decide) (by decide) (by decide)
  (.inl ⟨by decide +kernel, by unfold Plausible; decide +kernel, by decide +kernel⟩)
example := C36_short (exData 0 0 0) ⟨rfl, rfl, rfl, rfl⟩ "1".toList "c".toList 0 1 0 (by decide) (by decide)
  (by decide +kernel) (by decide) (by decide) (by decide +kernel) (by decide) (by unfold Plausible; decide +kernel)
  (by decide +kernel)
example := C36_too_large (exData 0 0 0) "9999092235.80c".toList "9999092235".toList (by decide)
  ⟨[], [], [], ".80c".toList, by decide +kernel, by decide, by decide, by decide, by decide⟩
  (by decide) (by decide) (by decide +kernel)

end ACE.Props
