import Verif.Model.Continuous
import Verif.Lemmas.Core

/-! # The arrangement of the blocks in a continuous energy table -/

namespace ACE

/-- Part of a range that starts with known words. -/
theorem sub_of_prefix {xs a b : Words} (h : a ++ b <+: xs) :
    sub xs a.length (a.length + b.length) = .ok b := by
  obtain ⟨c, rfl⟩ := h
  exact sub_of_eq (a := a) (c := c) (by simp) rfl rfl

namespace CE

/-- Positions: `n k` words come before the end of a part; flags for the optional blocks. -/
structure Marks where
  n1 : Nat
  n2 : Nat
  n3 : Nat
  n4 : Nat
  n5 : Nat
  n6 : Nat
  n8 : Nat
  n10 : Nat
  n23 : Nat
  n24 : Nat
  n25 : Nat
  n26 : Nat
  n12 : Nat
  n13 : Nat
  n14 : Nat
  n16 : Nat
  n18 : Nat
  n20 : Nat
  n30 : Nat
  n31 : Nat
  ntr : Nat
  nr : Nat
  ntrp : Nat
  npcr : Nat
  ntype : Nat
  fis : Nat
  nu : Bool
  unr : Bool
  dl : Bool
  ph : Bool
  sp : Bool

/-- The locators. -/
def Marks.js (M : Marks) : List Nat :=
  [1, if M.nu then M.n1 + 1 else 0, M.n2 + 1, M.n3 + 1, M.n4 + 1, M.n5 + 1, M.n5 + M.ntr + 1,
    M.n6 + 1, M.n6 + (M.nr + 1) + 1, M.n8 + 1, M.n8 + M.nr + 1,
    if M.ph then M.n26 + 1 else 0, if M.ph then M.n12 + 1 else 0, if M.ph then M.n13 + 1 else 0,
    if M.ph then M.n13 + M.ntrp + 1 else 0, if M.ph then M.n14 + 1 else 0,
    if M.ph then M.n14 + M.ntrp + 1 else 0, if M.ph then M.n16 + 1 else 0,
    if M.ph then M.n16 + M.ntrp + 1 else 0, if M.ph then M.n18 + 1 else 0, M.fis, M.n20,
    if M.unr then M.n10 + 1 else 0, if M.dl then M.n23 + 1 else 0, if M.dl then M.n24 + 1 else 0,
    if M.dl then M.n25 + 1 else 0, if M.dl then M.n25 + M.npcr + 1 else 0, 0, 0,
    if M.sp then M.n20 + 1 else 0, if M.sp then M.n30 + 1 else 0, if M.sp then M.n31 + 1 else 0]

/-- What is needed of the positions. -/
structure Marks.Ok (M : Marks) : Prop where
  mono : M.n1 ≤ M.n2 ∧ M.n2 ≤ M.n3 ∧ M.n3 ≤ M.n4 ∧ M.n4 ≤ M.n5
  sig : M.n5 + M.ntr ≤ M.n6
  ang : M.n6 + (M.nr + 1) ≤ M.n8
  dlw : M.n8 + M.nr ≤ M.n10
  unr : M.n10 ≤ M.n23
  nonu : M.nu = false → M.n2 = M.n1
  nounr : M.unr = false → M.n23 = M.n10
  nodl : M.dl = false → M.n26 = M.n23
  noph : M.ph = false → M.n20 = M.n26
  dl : M.n23 ≤ M.n24 ∧ M.n24 ≤ M.n25 ∧ M.n25 + (if M.dl then M.npcr else 0) ≤ M.n26
  ph : M.n26 ≤ M.n12 ∧ M.n12 ≤ M.n13 ∧ M.n13 + (if M.ph then M.ntrp else 0) ≤ M.n14 ∧
    M.n14 + (if M.ph then M.ntrp else 0) ≤ M.n16 ∧ M.n16 + (if M.ph then M.ntrp else 0) ≤ M.n18 ∧
    M.n18 ≤ M.n20
  sp : M.n20 ≤ M.n30 ∧ M.n30 ≤ M.n31
  fis : M.fis = 0 ∨ (1 ≤ M.ntr ∧ M.n5 + M.ntr + 1 ≤ M.fis ∧ M.fis ≤ M.n6)
  /-- The last block has more than one word. -/
  clash : M.n6 + 2 ≤ M.n20 ∧ M.n8 + 1 ≠ M.n20 ∧ (M.ph = true → M.n18 + 2 ≤ M.n20) ∧
    (M.dl = true → M.n25 + 2 ≤ M.n20)

/-- The end of a block for locators without conversions. -/
def endN (js : List Nat) (index start : Nat) : Nat :=
  match (js.drop index).find? (fun v => decide (start ≤ v)) with
  | none => 0
  | some v =>
      let stop := if v ≠ js.getD 21 0 then v else v + 1
      if stop = js.getD 20 0 then js.getD 21 0 + 1 else stop

theorem find?_map_cast (l : List Nat) (start : Nat) (h : ∀ v ∈ l, FitsN v) :
    (l.map (fun v : Nat => (v : Int))).find? (fun value => decide (start ≤ sizeOfInt value)) =
      (l.find? (fun v => decide (start ≤ v))).map (fun v : Nat => (v : Int)) := by
  induction l with
  | nil => rfl
  | cons v l ih =>
    have hv := sizeOfInt_natCast (h v (by simp))
    have ih := ih (fun w hw => h w (by simp [hw]))
    simp only [List.map_cons, List.find?_cons, hv]
    by_cases hs : start ≤ v
    · simp [hs]
    · simp only [hs, decide_false]; exact ih

variable {d : TableData} {js : List Nat}

theorem JXS_cast (hj : d.jxs = js.map (fun v : Nat => (v : Int))) (hl : js.length = 32) (i : Nat)
    (hi : i < 32) : d.JXS (i + 1) = .ok (js.getD i 0 : Nat) := by
  unfold TableData.JXS TableData.fetch TableData.verifyIndex
  rw [hj, List.length_map, if_neg (by omega), ok_bind]
  have hi' : i < js.length := by omega
  simp [hi']

theorem locator_cast (hj : d.jxs = js.map (fun v : Nat => (v : Int))) (hl : js.length = 32)
    (hf : ∀ v ∈ js, FitsN (v + 1)) (i : Nat) (hi : i < 32) :
    d.locator (i + 1) = .ok (js.getD i 0) := by
  unfold TableData.locator
  rw [JXS_cast hj hl i hi, ok_bind]
  have hi' : i < js.length := by omega
  have : js.getD i 0 ∈ js := by simp [List.getD, hi']
  have := hf _ this
  rw [sizeOfInt_natCast (by omega)]; rfl

theorem generalEnd_eq (hj : d.jxs = js.map (fun v : Nat => (v : Int))) (hl : js.length = 32)
    (hf : ∀ v ∈ js, FitsN (v + 1)) (index start : Nat) :
    generalEnd d index start = .ok (endN js index start) := by
  have h22 := JXS_cast hj hl 21 (by omega)
  have h21 := locator_cast hj hl hf 20 (by omega)
  have hm : ∀ i, i < 32 → FitsN (js.getD i 0 + 1) := by
    intro i hi
    have hi' : i < js.length := by omega
    exact hf _ (by simp [List.getD, hi'])
  unfold generalEnd endN
  simp only [h22, h21, ok_bind]
  rw [hj, ← List.map_drop, find?_map_cast _ _ (fun v hv => by
    have := hf v (List.mem_of_mem_drop hv); omega)]
  cases hfd : (js.drop index).find? (fun v => decide (start ≤ v)) with
  | none => rfl
  | some v =>
    have hv := hf v (List.mem_of_mem_drop (List.mem_of_find?_eq_some hfd))
    have e1 : sizeOfInt ((v : Int) + 1) = v + 1 := by
      have := sizeOfInt_natCast hv
      simpa using this
    have e2 : sizeOfInt ((js.getD 21 0 : Int) + 1) = js.getD 21 0 + 1 := by
      have := sizeOfInt_natCast (hm 21 (by omega))
      simpa using this
    have e3 : ((v : Int) ≠ (js.getD 21 0 : Int)) ↔ v ≠ js.getD 21 0 := by omega
    simp only [Option.map_some]
    rw [sizeOfInt_natCast (by omega : FitsN v), e1, e2]
    simp only [e3]
    by_cases hs : (if v ≠ js.getD 21 0 then v else v + 1) = js.getD 20 0
    · rw [if_pos hs, if_pos hs]; rfl
    · rw [if_neg hs, if_neg hs]; rfl

/-- The exceptions without conversions. -/
def exceptN (js : List Nat) (index start stop : Nat) : Nat :=
  if index = 11 then
    match (js.drop 22).find? (fun v => decide (start ≤ v)) with
    | none => stop
    | some next => if stop > next then next else stop
  else if index = 27 then
    let stop' := if stop = 0 then js.getD 21 0 + 1 else stop
    if js.getD 11 0 ≠ 0 ∧ stop' > js.getD 11 0 then js.getD 11 0 else stop'
  else stop

theorem exceptions_eq (hj : d.jxs = js.map (fun v : Nat => (v : Int))) (hl : js.length = 32)
    (hf : ∀ v ∈ js, FitsN (v + 1)) (index start stop : Nat) :
    exceptions d index start stop = .ok (exceptN js index start stop) := by
  have hm : ∀ i, i < 32 → FitsN (js.getD i 0 + 1) := by
    intro i hi
    have hi' : i < js.length := by omega
    exact hf _ (by simp [List.getD, hi'])
  unfold exceptions exceptN
  by_cases h11 : index = 11
  · rw [if_pos h11, if_pos h11, hj, ← List.map_drop, find?_map_cast _ _ (fun v hv => by
      have := hf v (List.mem_of_mem_drop hv); omega)]
    cases hfd : (js.drop 22).find? (fun v => decide (start ≤ v)) with
    | none => rfl
    | some v =>
      have hv := hf v (List.mem_of_mem_drop (List.mem_of_find?_eq_some hfd))
      simp only [Option.map_some]
      rw [sizeOfInt_natCast (by omega : FitsN v)]
      by_cases hs : stop > v
      · rw [if_pos hs, if_pos hs]; rfl
      · rw [if_neg hs, if_neg hs]; rfl
  · rw [if_neg h11, if_neg h11]
    by_cases h27 : index = 27
    · rw [if_pos h27, if_pos h27]
      have e2 : sizeOfInt ((js.getD 21 0 : Int) + 1) = js.getD 21 0 + 1 := by
        have := sizeOfInt_natCast (hm 21 (by omega))
        simpa using this
      simp only [JXS_cast hj hl 21 (by omega), locator_cast hj hl hf 11 (by omega), ok_bind, e2]
      split <;> split <;> rfl
    · rw [if_neg h27, if_neg h27]; rfl

theorem block_eq (hj : d.jxs = js.map (fun v : Nat => (v : Int))) (hl : js.length = 32)
    (hf : ∀ v ∈ js, FitsN (v + 1)) (i : Nat) (hi : i < 31) (hs : js.getD i 0 ≠ 0) :
    block d (i + 1) = d.range (js.getD i 0)
      (exceptN js (i + 1) (js.getD i 0) (endN js (i + 1) (js.getD i 0))) := by
  unfold block blockEnd
  rw [locator_cast hj hl hf i (by omega), ok_bind, if_neg (by omega), if_pos hs,
    generalEnd_eq hj hl hf]
  simp only [ok_bind]
  rw [exceptions_eq hj hl hf, ok_bind]

theorem range_ok (d : TableData) (start stop : Nat) (h1 : 1 ≤ start)
    (h2 : start ≤ d.xss.length + 1) (h3 : 1 ≤ stop) (h4 : stop ≤ d.xss.length + 1) :
    d.range start stop = .ok (start - 1, stop - 1) := by
  unfold TableData.range
  rw [if_neg (by omega), if_neg (by omega), if_neg (by omega)]

theorem range_end (d : TableData) (start : Nat) (h1 : 1 ≤ start)
    (h2 : start ≤ d.xss.length + 1) : d.range start 0 = .ok (start - 1, d.xss.length) := by
  unfold TableData.range
  rw [if_neg (by omega), if_pos rfl]

theorem Marks.js_length (M : Marks) : M.js.length = 32 := rfl

end CE
end ACE
