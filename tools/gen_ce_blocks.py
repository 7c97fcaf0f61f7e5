hdr='''import Verif.Lemmas.Continuous

/-! # The range of each block of a continuous energy table -/

set_option linter.unusedSimpArgs false
set_option linter.unusedSectionVars false

namespace ACE.CE

/-- Find the first locator not before the start. -/
macro "first_locator" : tactic => `(tactic|
  ((repeat rw [List.find?_cons_of_neg (by simp only [decide_eq_true_eq]; omega)]);
   first
   | rw [List.find?_cons_of_pos (by simp only [decide_eq_true_eq]; omega)]
   | rw [List.find?_nil]))

theorem endN_of {js : List Nat} {index start v : Nat}
    (h : (js.drop index).find? (fun v => decide (start ≤ v)) = some v) (h1 : v ≠ js.getD 21 0)
    (h2 : v ≠ js.getD 20 0) : endN js index start = v := by
  unfold endN; rw [h]; simp only; rw [if_pos h1, if_neg h2]

theorem endN_last {js : List Nat} {index start v : Nat}
    (h : (js.drop index).find? (fun v => decide (start ≤ v)) = some v) (h1 : v = js.getD 21 0)
    (h2 : v + 1 ≠ js.getD 20 0) : endN js index start = v + 1 := by
  unfold endN; rw [h]; simp only
  have : ¬ (v ≠ js.getD 21 0) := by omega
  rw [if_neg this, if_neg h2]

theorem endN_none {js : List Nat} {index start : Nat}
    (h : (js.drop index).find? (fun v => decide (start ≤ v)) = none) : endN js index start = 0 := by
  unfold endN; rw [h]

/-- The end is always at least one and, for a following locator not after the last word, inside of
the table. -/
theorem endN_bound {js : List Nat} {index start v : Nat}
    (h : (js.drop index).find? (fun v => decide (start ≤ v)) = some v) (h1 : 1 ≤ v)
    (h2 : v ≤ js.getD 21 0 + 1) :
    1 ≤ endN js index start ∧ endN js index start ≤ js.getD 21 0 + 1 := by
  unfold endN; rw [h]; simp only
  by_cases h3 : v ≠ js.getD 21 0
  · rw [if_pos h3]; split <;> omega
  · rw [if_neg h3]; split <;> omega

section
variable (M : Marks) (ok : M.Ok) (d : TableData)
  (hj : d.jxs = M.js.map (fun v : Nat => (v : Int))) (hf : ∀ v ∈ M.js, FitsN (v + 1))
  (hx : M.n20 ≤ d.xss.length)
include hj hf

/-- Combination: the end found by the rules gives the range. -/
theorem block_of (i : Nat) (hi : i < 31) (start stop : Nat) (hs : M.js.getD i 0 = start)
    (he : exceptN M.js (i + 1) start (endN M.js (i + 1) start) = stop) (h0 : 1 ≤ start)
    (h1 : start ≤ d.xss.length + 1) (h2 : 1 ≤ stop)
    (h3 : stop ≤ d.xss.length + 1) : block d (i + 1) = .ok (start - 1, stop - 1) := by
  rw [block_eq hj M.js_length hf i hi (by omega), hs, he, range_ok d _ _ h0 h1 h2 h3]

/-- The same for the end of the table. -/
theorem block_of_end (i : Nat) (hi : i < 31) (start : Nat) (hs : M.js.getD i 0 = start)
    (he : exceptN M.js (i + 1) start (endN M.js (i + 1) start) = 0) (h0 : 1 ≤ start)
    (h1 : start ≤ d.xss.length + 1) : block d (i + 1) = .ok (start - 1, d.xss.length) := by
  rw [block_eq hj M.js_length hf i hi (by omega), hs, he, range_end d _ h0 h1]

include ok hx
'''
body=''
DROP="simp only [Marks.js, {h}List.drop_succ_cons, List.drop_zero, List.drop_nil, Bool.false_eq_true, if_true, if_false]"
def simple(k, start, stop, hyp=''):
    # block k with next locator immediately; start/stop are locators minus 1
    global body
    hs=''
    hh=''
    if hyp:
        hs=f' (h : M.{hyp} = true)'; hh='h, '
    getd = 'rfl' if not hyp else 'by simp [Marks.js, h]'
    body+=f'''
theorem block{k}{hs} : block d {k} = .ok ({start}, {stop}) := by
  obtain ⟨o1, o2, o3, o4, o5, o6, o7, o8, o9, o10, o11, o12, o13, o14⟩ := ok
  {'simp only [h, if_true, true_implies] at o10 o11 o14' if hyp in('ph','dl') else 'skip'}
  have hfind : (M.js.drop {k}).find? (fun v => decide ({start} + 1 ≤ v)) = some ({stop} + 1) := by
    clear hj hf
    {DROP.format(h=hh)}
    first_locator
  have he : endN M.js {k} ({start} + 1) = {stop} + 1 :=
    endN_of hfind (show _ ≠ M.n20 by omega) (show _ ≠ M.fis by omega)
  exact block_of M d hj hf {k-1} (by omega) ({start} + 1) ({stop} + 1) ({getd}) (by rw [he]; rfl)
    (by omega) (by omega) (by omega) (by omega)
'''
def firstonly(k, start, nxt, hyp=''):
    global body
    hs=''
    hh=''
    if hyp:
        hs=f' (h : M.{hyp} = true)'; hh='h, '
    getd = 'rfl' if not hyp else 'by simp [Marks.js, h]'
    body+=f'''
theorem block{k}{hs} : ∃ e, block d {k} = .ok ({start}, e) := by
  obtain ⟨o1, o2, o3, o4, o5, o6, o7, o8, o9, o10, o11, o12, o13, o14⟩ := ok
  {'simp only [h, if_true, true_implies] at o10 o11 o14' if hyp in('ph','dl') else 'skip'}
  have hfind : (M.js.drop {k}).find? (fun v => decide ({start} + 1 ≤ v)) = some ({nxt} + 1) := by
    clear hj hf
    {DROP.format(h=hh)}
    first_locator
  have he := endN_bound hfind (by omega) (show _ ≤ M.n20 + 1 by omega)
  have e20 : M.js.getD 21 0 = M.n20 := rfl
  rw [e20] at he
  exact ⟨_, block_of M d hj hf {k-1} (by omega) ({start} + 1) (endN M.js {k} ({start} + 1)) ({getd}) rfl
    (by omega) (by omega) he.1 (Nat.le_trans he.2 (by omega))⟩
'''
body+=f'''
theorem block1 : block d 1 = .ok (0, M.n1) := by
  obtain ⟨o1, o2, o3, o4, o5, o6, o7, o8, o9, o10, o11, o12, o13, o14⟩ := ok
  have hfind : (M.js.drop 1).find? (fun v => decide (1 ≤ v)) = some (M.n1 + 1) := by
    clear hj hf
    cases h : M.nu
    · have := o6 h
      {DROP.format(h='h, ')}
      first_locator
      rw [this]
    · {DROP.format(h='h, ')}
      first_locator
  have he : endN M.js 1 1 = M.n1 + 1 :=
    endN_of hfind (show _ ≠ M.n20 by omega) (show _ ≠ M.fis by omega)
  exact block_of M d hj hf 0 (by omega) 1 (M.n1 + 1) rfl (by rw [he]; rfl)
    (by omega) (by omega) (by omega) (by omega)
'''
simple(2,'M.n1','M.n2','nu')
simple(3,'M.n2','M.n3'); simple(4,'M.n3','M.n4'); simple(5,'M.n4','M.n5')
firstonly(6,'M.n5','M.n5 + M.ntr')
simple(7,'(M.n5 + M.ntr)','M.n6')
firstonly(8,'M.n6','M.n6 + (M.nr + 1)')
simple(9,'(M.n6 + (M.nr + 1))','M.n8')
firstonly(10,'M.n8','M.n8 + M.nr')
ph='ph'
simple(12,'M.n26','M.n12',ph); simple(13,'M.n12','M.n13',ph)
firstonly(14,'M.n13','M.n13 + M.ntrp',ph); simple(15,'(M.n13 + M.ntrp)','M.n14',ph)
firstonly(16,'M.n14','M.n14 + M.ntrp',ph); simple(17,'(M.n14 + M.ntrp)','M.n16',ph)
firstonly(18,'M.n16','M.n16 + M.ntrp',ph); simple(19,'(M.n16 + M.ntrp)','M.n18',ph)
dl='dl'
simple(24,'M.n23','M.n24',dl); simple(25,'M.n24','M.n25',dl)
firstonly(26,'M.n25','M.n25 + M.npcr',dl)
extra=r'''
/-- Split on the optional blocks. -/
macro "split_flags" M:term : tactic => `(tactic|
  (rcases hph : Marks.ph $M with _ | _ <;> rcases hunr : Marks.unr $M with _ | _ <;>
   rcases hdl : Marks.dl $M with _ | _ <;> rcases hsp : Marks.sp $M with _ | _))

theorem block11 (hend : M.sp = false → d.xss.length = M.n20) :
    block d 11 = .ok (M.n8 + M.nr, M.n10) := by
  obtain ⟨o1, o2, o3, o4, o5, o6, o7, o8, o9, o10, o11, o12, o13, o14⟩ := ok
  have e20 : M.js.getD 21 0 = M.n20 := rfl
  have efis : M.js.getD 20 0 = M.fis := rfl
  have hd : M.js.drop 11 = [if M.ph then M.n26 + 1 else 0, if M.ph then M.n12 + 1 else 0,
      if M.ph then M.n13 + 1 else 0,
      if M.ph then M.n13 + M.ntrp + 1 else 0, if M.ph then M.n14 + 1 else 0,
      if M.ph then M.n14 + M.ntrp + 1 else 0, if M.ph then M.n16 + 1 else 0,
      if M.ph then M.n16 + M.ntrp + 1 else 0, if M.ph then M.n18 + 1 else 0, M.fis, M.n20] ++
      M.js.drop 22 := rfl
  have hd2 : M.js.drop 22 = [if M.unr then M.n10 + 1 else 0, if M.dl then M.n23 + 1 else 0,
      if M.dl then M.n24 + 1 else 0,
      if M.dl then M.n25 + 1 else 0, if M.dl then M.n25 + M.npcr + 1 else 0, 0, 0,
      if M.sp then M.n20 + 1 else 0, if M.sp then M.n30 + 1 else 0,
      if M.sp then M.n31 + 1 else 0] := rfl
  /- the locator after the delayed and unresolved data -/
  have hnext : (M.js.drop 22).find? (fun v => decide (M.n8 + M.nr + 1 ≤ v)) =
      if M.unr = true ∨ M.dl = true then some (M.n10 + 1)
      else if M.sp = true then some (M.n20 + 1) else none := by
    rw [hd2]
    clear hd hd2 hj hf hend
    rcases hunr : M.unr with _ | _ <;> rcases hdl : M.dl with _ | _ <;>
      rcases hsp : M.sp with _ | _ <;>
      simp only [hunr, hdl, hsp, Bool.false_eq_true, if_true, if_false, or_true, true_or, or_false,
        false_or, true_implies, forall_const] at o7 o8 ⊢ <;>
      first_locator <;> first | rfl | (congr 1; omega)
  have key : ∀ v, v ≠ M.n20 → v ≠ M.fis → (if (if v ≠ M.n20 then v else v + 1) = M.fis then M.n20 + 1
      else (if v ≠ M.n20 then v else v + 1)) = v := by
    intro v h1 h2; rw [if_pos h1, if_neg h2]
  have hgen : endN M.js 11 (M.n8 + M.nr + 1) =
      if M.ph = true then M.n26 + 1
      else if M.n8 + M.nr + 1 ≤ M.n20 then M.n20 + 1
      else if M.unr = true ∨ M.dl = true then M.n10 + 1
      else if M.sp = true then M.n20 + 1 else 0 := by
    unfold endN
    rw [hd, List.find?_append, hnext, e20, efis]
    clear hd hd2 hj hf hend hnext
    rcases hph : M.ph with _ | _
    · simp only [hph, Bool.false_eq_true, if_true, if_false, false_implies, true_implies, forall_const] at o9 o11 o14 ⊢
      by_cases hz : M.n8 + M.nr + 1 ≤ M.n20
      · have : ([0, 0, 0, 0, 0, 0, 0, 0, 0, M.fis, M.n20].find?
            (fun v => decide (M.n8 + M.nr + 1 ≤ v))) = some M.n20 := by first_locator
        rw [this]
        simp only [Option.some_or, ne_eq, not_true, if_false, if_pos hz]
        rw [if_neg (by omega)]
      · have : ([0, 0, 0, 0, 0, 0, 0, 0, 0, M.fis, M.n20].find?
            (fun v => decide (M.n8 + M.nr + 1 ≤ v))) = none := by first_locator
        rw [this]
        simp only [Option.none_or, if_neg hz]
        by_cases hu : M.unr = true ∨ M.dl = true
        · simp only [if_pos hu]
          exact key _ (by omega) (by omega)
        · simp only [if_neg hu]
          by_cases hs : M.sp = true
          · simp only [if_pos hs]
            exact key _ (by omega) (by omega)
          · simp only [if_neg hs]
    · simp only [hph, Bool.false_eq_true, if_true, if_false, false_implies, true_implies, forall_const] at o9 o11 o14 ⊢
      rw [List.find?_cons_of_pos (by simp only [decide_eq_true_eq]; omega)]
      simp only [Option.some_or]
      exact key _ (by omega) (by omega)
  have hst : M.js.getD 10 0 = M.n8 + M.nr + 1 := rfl
  by_cases hz : exceptN M.js 11 (M.n8 + M.nr + 1) (endN M.js 11 (M.n8 + M.nr + 1)) = 0
  · rw [block_of_end M d hj hf 10 (by omega) (M.n8 + M.nr + 1) hst hz (by omega) (by omega)]
    unfold exceptN at hz
    rw [if_pos rfl, hnext, hgen] at hz
    have : d.xss.length = M.n10 := by
      clear hnext hgen hd hd2 hj hf
      rcases hph : M.ph with _ | _ <;> rcases hunr : M.unr with _ | _ <;>
        rcases hdl : M.dl with _ | _ <;> rcases hsp : M.sp with _ | _ <;>
        simp only [hph, hunr, hdl, hsp, Bool.false_eq_true, if_true, if_false, or_true, true_or,
          or_false, false_or, true_implies, false_implies, forall_const] at * <;> 
        (first | omega | (repeat' split at hz) <;> omega)
    rw [this]; rfl
  · have hv : exceptN M.js 11 (M.n8 + M.nr + 1) (endN M.js 11 (M.n8 + M.nr + 1)) = M.n10 + 1 := by
      unfold exceptN at hz ⊢
      rw [if_pos rfl, hnext, hgen] at hz ⊢
      clear hnext hgen hd hd2 hj hf
      rcases hph : M.ph with _ | _ <;> rcases hunr : M.unr with _ | _ <;>
        rcases hdl : M.dl with _ | _ <;> rcases hsp : M.sp with _ | _ <;>
        simp only [hph, hunr, hdl, hsp, Bool.false_eq_true, if_true, if_false, or_true, true_or,
          or_false, false_or, true_implies, false_implies, forall_const] at * <;>
        (first | omega | (repeat' split at hz) <;> first | omega | (repeat' split) <;> omega)
    exact block_of M d hj hf 10 (by omega) (M.n8 + M.nr + 1) (M.n10 + 1) hst hv
      (by omega) (by omega) (by omega) (by
        have : M.n10 ≤ M.n20 := by
          clear hv hz hnext hgen hd hd2 hj hf
          omega
        omega)

theorem block20 (h : M.ph = true) : block d 20 = .ok (M.n18, M.n20) := by
  obtain ⟨o1, o2, o3, o4, o5, o6, o7, o8, o9, o10, o11, o12, o13, o14⟩ := ok
  simp only [h, if_true, true_implies] at o10 o11 o14
  have hfind : (M.js.drop 20).find? (fun v => decide (M.n18 + 1 ≤ v)) = some M.n20 := by
    clear hj hf
    simp only [Marks.js, h, List.drop_succ_cons, List.drop_zero, List.drop_nil, Bool.false_eq_true, if_true, if_false]
    first_locator
  have he : endN M.js 20 (M.n18 + 1) = M.n20 + 1 :=
    endN_last hfind rfl (show _ ≠ M.fis by omega)
  exact block_of M d hj hf 19 (by omega) (M.n18 + 1) (M.n20 + 1) (by simp [Marks.js, h]) (by rw [he]; rfl)
    (by omega) (by omega) (by omega) (by omega)

theorem block23 (h : M.unr = true) (hp : M.dl = true ∨ M.ph = false)
    (hend : M.sp = false → d.xss.length = M.n20) : block d 23 = .ok (M.n10, M.n23) := by
  obtain ⟨o1, o2, o3, o4, o5, o6, o7, o8, o9, o10, o11, o12, o13, o14⟩ := ok
  have hfind : (M.js.drop 23).find? (fun v => decide (M.n10 + 1 ≤ v)) =
      if M.dl = true then some (M.n23 + 1) else if M.sp = true then some (M.n20 + 1) else none := by
    clear hj hf hend
    rcases hdl : M.dl with _ | _ <;> rcases hsp : M.sp with _ | _ <;>
      simp only [Marks.js, hdl, hsp, List.drop_succ_cons, List.drop_zero, List.drop_nil, Bool.false_eq_true, if_true, if_false] <;>
      first_locator
  have hst : M.js.getD 22 0 = M.n10 + 1 := by simp [Marks.js, h]
  by_cases hdl : M.dl = true
  · rw [if_pos hdl] at hfind
    have he : endN M.js 23 (M.n10 + 1) = M.n23 + 1 :=
      endN_of hfind (show _ ≠ M.n20 by have := o14.2.2.2 hdl; omega) (show _ ≠ M.fis by omega)
    exact block_of M d hj hf 22 (by omega) (M.n10 + 1) (M.n23 + 1) hst (by rw [he]; rfl)
      (by omega) (by omega) (by omega) (by omega)
  · rw [if_neg hdl] at hfind
    have hd' : M.dl = false := by simpa using hdl
    have hp' : M.ph = false := by rcases hp with hp | hp; exact absurd hp hdl; exact hp
    have e1 := o8 hd'
    have e2 := o9 hp'
    by_cases hsp : M.sp = true
    · rw [if_pos hsp] at hfind
      have he : endN M.js 23 (M.n10 + 1) = M.n20 + 1 :=
        endN_of hfind (show _ ≠ M.n20 by omega) (show _ ≠ M.fis by omega)
      have := block_of M d hj hf 22 (by omega) (M.n10 + 1) (M.n20 + 1) hst (by rw [he]; rfl)
        (by omega) (by omega) (by omega) (by omega)
      rw [this, e2, e1]; rfl
    · rw [if_neg hsp] at hfind
      have he : endN M.js 23 (M.n10 + 1) = 0 := endN_none hfind
      rw [block_of_end M d hj hf 22 (by omega) (M.n10 + 1) hst (by rw [he]; rfl) (by omega) (by omega),
        hend (by simpa using hsp), e2, e1]; rfl

theorem block27 (h : M.dl = true) : block d 27 = .ok (M.n25 + M.npcr, M.n26) := by
  obtain ⟨o1, o2, o3, o4, o5, o6, o7, o8, o9, o10, o11, o12, o13, o14⟩ := ok
  simp only [h, if_true, true_implies] at o10 o14
  have hfind : (M.js.drop 27).find? (fun v => decide (M.n25 + M.npcr + 1 ≤ v)) =
      if M.sp = true then some (M.n20 + 1) else none := by
    clear hj hf
    rcases hsp : M.sp with _ | _ <;>
      simp only [Marks.js, hsp, List.drop_succ_cons, List.drop_zero, List.drop_nil, Bool.false_eq_true, if_true, if_false] <;>
      first_locator
  have hst : M.js.getD 26 0 = M.n25 + M.npcr + 1 := by simp [Marks.js, h]
  have he : exceptN M.js 27 (M.n25 + M.npcr + 1) (endN M.js 27 (M.n25 + M.npcr + 1)) = M.n26 + 1 := by
    have hs : (if endN M.js 27 (M.n25 + M.npcr + 1) = 0 then M.n20 + 1
        else endN M.js 27 (M.n25 + M.npcr + 1)) = M.n20 + 1 := by
      by_cases hsp : M.sp = true
      · rw [if_pos hsp] at hfind
        rw [endN_of hfind (show _ ≠ M.n20 by omega) (show _ ≠ M.fis by omega), if_neg (by omega)]
      · rw [if_neg hsp] at hfind
        rw [endN_none hfind, if_pos rfl]
    unfold exceptN
    have e20 : M.js.getD 21 0 = M.n20 := rfl
    have e12 : M.js.getD 11 0 = if M.ph then M.n26 + 1 else 0 := rfl
    rw [if_neg (by omega), if_pos rfl, e20, e12]
    simp only [hs]
    rcases hph : M.ph with _ | _
    · simp only [Bool.false_eq_true, if_false, ne_eq, not_true, false_and]
      rw [o9 hph]
    · simp only [hph, if_true, true_implies] at o11 o14 ⊢
      rw [if_pos (by omega)]
  exact block_of M d hj hf 26 (by omega) (M.n25 + M.npcr + 1) (M.n26 + 1) hst he
    (by omega) (by omega) (by omega) (by omega)

theorem block30 (h : M.sp = true) (hx30 : M.n30 ≤ d.xss.length) : block d 30 = .ok (M.n20, M.n30) := by
  obtain ⟨o1, o2, o3, o4, o5, o6, o7, o8, o9, o10, o11, o12, o13, o14⟩ := ok
  have hfind : (M.js.drop 30).find? (fun v => decide (M.n20 + 1 ≤ v)) = some (M.n30 + 1) := by
    clear hj hf
    simp only [Marks.js, h, List.drop_succ_cons, List.drop_zero, List.drop_nil, Bool.false_eq_true, if_true, if_false]
    first_locator
  have he : endN M.js 30 (M.n20 + 1) = M.n30 + 1 :=
    endN_of hfind (show _ ≠ M.n20 by omega) (show _ ≠ M.fis by omega)
  exact block_of M d hj hf 29 (by omega) (M.n20 + 1) (M.n30 + 1) (by simp [Marks.js, h]) (by rw [he]; rfl)
    (by omega) (by omega) (by omega) (by omega)

theorem block31 (h : M.sp = true) (hx31 : M.n31 ≤ d.xss.length) : block d 31 = .ok (M.n30, M.n31) := by
  obtain ⟨o1, o2, o3, o4, o5, o6, o7, o8, o9, o10, o11, o12, o13, o14⟩ := ok
  have hfind : (M.js.drop 31).find? (fun v => decide (M.n30 + 1 ≤ v)) = some (M.n31 + 1) := by
    clear hj hf
    simp only [Marks.js, h, List.drop_succ_cons, List.drop_zero, List.drop_nil, Bool.false_eq_true, if_true, if_false]
    first_locator
  have he : endN M.js 31 (M.n30 + 1) = M.n31 + 1 :=
    endN_of hfind (show _ ≠ M.n20 by omega) (show _ ≠ M.fis by omega)
  exact block_of M d hj hf 30 (by omega) (M.n30 + 1) (M.n31 + 1) (by simp [Marks.js, h]) (by rw [he]; rfl)
    (by omega) (by omega) (by omega) (by omega)

omit ok hx in
theorem block32 (h : M.sp = true) (hc : d.count 7 = .ok M.ntype) (h0 : 1 ≤ M.ntype)
    (hx32 : M.n31 + M.ntype * 10 + 1 ≤ d.xss.length) :
    block d 32 = .ok (M.n31, M.n31 + M.ntype * 10 + 1) := by
  have hst : M.js.getD 31 0 = M.n31 + 1 := by simp [Marks.js, h]
  unfold block blockEnd
  rw [locator_cast hj M.js_length hf 31 (by omega), ok_bind, if_pos rfl, hc, hst]
  simp only [ok_bind]
  rw [if_pos (by omega)]
  show d.range (M.n31 + 1) (M.n31 + 1 + M.ntype * 10 + 1) = _
  rw [range_ok d _ _ (by omega) (by omega) (by omega) (by omega)]
  congr 2; omega
'''
body+=extra
open('/verif/lean/Verif/Lemmas/ContinuousBlocks.lean','w').write(hdr+body+'\nend\nend ACE.CE\n')
