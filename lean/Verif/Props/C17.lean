import Verif.Props.C16

/-!
# C17: energy distributions of secondary particles (DLWH, DLWP, DNED)

`DlwhGives ss fs d` says that the block gives back the distributions `ss` in order, each at the
locator the block reports, and the frames `fs` when there are frames.
-/

namespace ACE.Props
open ACE

/-- What the block gives. -/
structure DlwhGives (sort : StdSort EquiEnergy.incident) (ss : List DistSpec)
    (fs : Option (List Frame)) (d : DLWH) : Prop where
  count : d.block.n = ss.length
  distribution : ∀ (k : Nat) (h : k < ss.length), ∃ (locator : Nat) (e : EnergyData),
    d.LDLW (k + 1) = .ok locator ∧ 1 ≤ locator ∧ d.distribution (k + 1) = .ok e ∧
    ss[k].Gives sort locator e
  frame : ∀ (k : Nat) (h : k < ss.length), d.referenceFrame (k + 1) = .ok (fs.bind fun l => l[k]?)
  refused : ∀ k, k = 0 ∨ ss.length < k → d.LDLW k = .error .range ∧ d.distribution k = .error .range ∧
    d.referenceFrame k = .error .range

/-- The distributions are placed at their locators. -/
def PlacedH : Nat → List EnergyData → List Words → Prop
  | _, [], [] => True
  | k, e :: es, w :: ws => e.placed (k + 1) = .ok w ∧ PlacedH (k + w.length) es ws
  | _, _, _ => False

theorem placedH_length {k : Nat} {es : List EnergyData} {ws : List Words} (h : PlacedH k es ws) :
    ws.length = es.length := by
  induction es generalizing k ws with
  | nil => cases ws with
    | nil => rfl
    | cons => exact h.elim
  | cons e es ih => cases ws with
    | nil => exact h.elim
    | cons w ws => simp [ih h.2]

theorem placedH_get {k : Nat} {es : List EnergyData} {ws : List Words} (h : PlacedH k es ws)
    (i : Nat) (hi : i < es.length) (hw : i < ws.length) :
    es[i].placed (k + startOf ws i + 1) = .ok ws[i] := by
  induction es generalizing k ws i with
  | nil => simp at hi
  | cons e es ih => cases ws with
    | nil => exact h.elim
    | cons w ws =>
      cases i with
      | zero => simpa using h.1
      | succ i =>
        have := ih h.2 i (by simpa using hi) (by simpa using hw)
        simpa [startOf, Nat.add_assoc] using this

theorem placedH_exists (es : List EnergyData) (k : Nat)
    (h : ∀ e ∈ es, ∀ loc, FitsN (loc + distLen e + 1) →
      ∃ w, e.placed loc = .ok w ∧ w.length = distLen e)
    (hf : FitsN (k + (es.map distLen).sum + 2)) :
    ∃ ws, PlacedH k es ws ∧ ws.flatten.length = (es.map distLen).sum ∧
      ∀ (i : Nat) (h : i < es.length) (h' : i < ws.length), ws[i].length = distLen es[i] := by
  induction es generalizing k with
  | nil => exact ⟨[], trivial, rfl, fun i h => by simp at h⟩
  | cons e es ih =>
    simp only [List.map_cons, List.sum_cons] at hf
    obtain ⟨w, h1, h2⟩ := h e (by simp) (k + 1) (by omega)
    obtain ⟨ws, h3, h4, h5⟩ := ih (k + w.length) (fun e he => h e (by simp [he])) (by omega)
    refine ⟨w :: ws, ⟨h1, h3⟩, ?_, fun i hi hi' => ?_⟩
    · simp only [List.flatten_cons, List.length_append, h4, h2, List.map_cons, List.sum_cons]
    · cases i with
      | zero => exact h2
      | succ i => exact h5 i (by simpa using hi) (by simpa using hi')

theorem dlwh_loop (size : Nat) (es : List EnergyData) (ws : List Words) (ls acc : Words) (z : Dbl)
    (hn : size = ls.length + es.length) (h : PlacedH acc.length es ws) :
    DLWH.loop size es (ls ++ List.replicate es.length z ++ acc) ls.length =
      .ok (ls ++ locsFrom (fun k => Dbl.ofNat (if true then k + 1 else k)) acc.length ws ++ acc ++
        ws.flatten) := by
  induction es generalizing ws ls acc with
  | nil => cases ws with
    | nil => simp [DLWH.loop, locsFrom]
    | cons => exact h.elim
  | cons e es ih => cases ws with
    | nil => exact h.elim
    | cons w ws =>
      obtain ⟨h2, h3⟩ := h
      have hlen : (ls ++ List.replicate (e :: es).length z ++ acc).length - size + 1 = acc.length + 1 := by
        simp at hn ⊢; omega
      have hset : (ls ++ List.replicate (e :: es).length z ++ acc).set ls.length
            (Dbl.ofNat (acc.length + 1)) ++ w
          = (ls ++ [Dbl.ofNat (acc.length + 1)]) ++ List.replicate es.length z ++ (acc ++ w) := by
        simp [List.replicate_succ]
      unfold DLWH.loop
      simp only [hlen, h2, ok_bind, hset]
      have := ih ws (ls ++ [Dbl.ofNat (acc.length + 1)]) (acc ++ w) (by simp at hn ⊢; omega)
        (by simpa using h3)
      simp only [List.length_append, List.length_singleton] at this
      rw [this]
      simp [locsFrom]

theorem dlwh_words (es : List EnergyData) (ws : List Words) (h : PlacedH 0 es ws) :
    DLWH.generateXSS es = .ok (LocBlock.header true ws ++ ws.flatten) := by
  have := dlwh_loop es.length es ws [] [] (Dbl.ofNat 0) (by simp) h
  unfold DLWH.generateXSS LocBlock.header
  simpa using this

/-- The frames of the TYRH block given to a reader. -/
def TyrhGives (fs : Option (List Frame)) (t : Option TYR) : Prop :=
  match fs, t with
  | some l, some t => ∃ m, TyrGives (l.zip m) t ∧ m.length = l.length
  | none, none => True
  | _, _ => False

theorem tyr_frames {vs : List (Frame × Nat)} {t : TYR} (h : TyrGives vs t) (k : Nat)
    (hk : k < vs.length) : t.frames[k]? = some vs[k].1 := by
  have h1 := (h.2 k hk).1
  unfold TYR.referenceFrame at h1
  split at h1
  · cases h1
  · simp only [Nat.add_sub_cancel] at h1
    split at h1
    · next x hx => injection h1 with h1; rw [hx, h1]
    · cases h1

theorem dlwh_frames (n : Nat) (fs : Option (List Frame)) (t : Option TYR) (h : TyrhGives fs t)
    (hl : ∀ l, fs = some l → n ≤ l.length) :
    ∃ l, DLWH.generateFrames t n = .ok l ∧ l.length = n ∧ ∀ k, k < n → l[k]? =
      some (fs.bind fun l => l[k]?) := by
  cases fs with
  | none => cases t with
    | none => exact ⟨List.replicate n none, rfl, by simp, fun k hk => by simp [hk]⟩
    | some t => exact h.elim
  | some fl => cases t with
    | none => exact h.elim
    | some t =>
      obtain ⟨m, hg, hm⟩ := h
      have hn := hl fl rfl
      have hz : (fl.zip m).length = fl.length := by simp [hm]
      have hfr : n ≤ t.frames.length := by
        by_cases h0 : n = 0
        · omega
        · have := tyr_frames hg (n - 1) (by omega)
          have := (List.getElem?_eq_some_iff.mp this).1
          omega
      refine ⟨(t.frames.take n).map some, ?_, by simp; omega, fun k hk => ?_⟩
      · unfold DLWH.generateFrames; simp only; rw [if_pos hfr]
      · have := tyr_frames hg k (by omega)
        rw [List.getElem?_map, List.getElem?_take, if_pos hk, this]
        simp [List.getElem?_eq_getElem (show k < fl.length by omega)]

theorem zip_one (l : List Frame) : l.zip (l.map fun _ => 1) = l.map fun f => (f, 1) := by
  induction l <;> simp_all

theorem dlwh_facts (sort : StdSort EquiEnergy.incident) (ss : List DistSpec) (es : List EnergyData)
    (he : ss.mapM (fun s => s.build sort) = .ok es) (hok : ∀ s ∈ ss, s.Ok ∧ s.Fits sort)
    (hf : FitsN (es.length + (es.map distLen).sum + 2)) (fs : Option (List Frame))
    (hfs : ∀ l, fs = some l → ss.length ≤ l.length) :
    ∃ d, DLWH.mk' es fs = .ok d ∧ d.block.xss.length = es.length + (es.map distLen).sum ∧
      DlwhGives sort ss fs d ∧
      ∀ (t : Option TYR) (gap rest : Words), TyrhGives fs t →
        ∃ d', DLWH.ofRange (d.block.xss.take ss.length ++ gap ++ d.block.xss.drop ss.length ++ rest)
          (ss.length + gap.length) t ss.length = .ok d' ∧ DlwhGives sort ss fs d' := by
  obtain ⟨le, he⟩ := mapM_ok_iff _ _ _ he
  have hplace : ∀ e ∈ es, ∀ loc, FitsN (loc + distLen e + 1) →
      ∃ w, e.placed loc = .ok w ∧ w.length = distLen e := by
    intro e hmem loc hloc
    obtain ⟨k, hk, hke⟩ := List.getElem_of_mem hmem
    have hr := hok _ (List.getElem_mem (show k < ss.length by omega))
    have h1 := he k (by omega) hk
    rw [hke] at h1
    obtain ⟨w, w1, w2, _⟩ := dist_placed sort _ _ h1 hr.1 hr.2 loc hloc
    exact ⟨w, w1, w2⟩
  obtain ⟨ws, hP, hPl, hPd⟩ := placedH_exists es 0 hplace (by omega)
  have hwl : ws.length = ss.length := by rw [placedH_length hP, le]
  have key : ∀ (gap rest : Words), ∃ ds, ds.length = ws.length ∧
      (∀ (k : Nat) (h : k < ws.length) (h' : k < ds.length),
        EnergyData.readSecondary (startOf ws k + 1) (LocBlock.cut ws rest k h) = .ok ds[k] ∧
        (ss[k]'(by omega)).Gives sort (startOf ws k + 1) ds[k]) ∧
      LocBlock.generateBlocks EnergyData.readSecondary (LocBlock.header true ws ++ gap ++ ws.flatten ++ rest)
        ws.length true (ws.length + gap.length) =
      .ok ⟨LocBlock.header true ws ++ gap ++ ws.flatten ++ rest, ws.length, true, ws.length + gap.length, ds⟩ := by
    intro gap rest
    obtain ⟨ds, l1, h1⟩ := exists_list ws.length
      (fun k e => ∀ (h : k < ws.length),
        EnergyData.readSecondary (startOf ws k + 1) (LocBlock.cut ws rest k h) = .ok e ∧
        (ss[k]'(by omega)).Gives sort (startOf ws k + 1) e) (fun k h => by
      have hr := hok _ (List.getElem_mem (show k < ss.length by omega))
      have hb := startOf_add_le ws k h
      have hdl := hPd k (by omega) h
      obtain ⟨w, w1, w2, w3, w4⟩ := dist_placed sort _ _ (he k (by omega) (by omega)) hr.1 hr.2
        (startOf ws k + 1) (by omega)
      have := placedH_get hP k (by omega) h
      rw [Nat.zero_add] at this
      rw [this] at w1; injection w1 with w1
      obtain ⟨e, e1, e2⟩ := w4 (if k + 1 = ws.length then rest else [])
      refine ⟨e, fun _ => ⟨?_, e2⟩⟩
      unfold EnergyData.readSecondary
      rw [if_neg (by omega), ← e1, ← w1]
      unfold LocBlock.cut
      split <;> simp)
    refine ⟨ds, l1, fun k h h' => h1 k h' h, ?_⟩
    exact LocBlock.generateBlocks_ok EnergyData.readSecondary true ws gap rest ds l1 (by omega)
      (fun i hi => (h1 i (by omega) hi).1)
  have give : ∀ (gap rest : Words) (ds : List EnergyData) (l1 : ds.length = ws.length)
      (_ : ∀ (k : Nat) (h : k < ws.length) (h' : k < ds.length),
        EnergyData.readSecondary (startOf ws k + 1) (LocBlock.cut ws rest k h) = .ok ds[k] ∧
        (ss[k]'(by omega)).Gives sort (startOf ws k + 1) ds[k]) (t : Option TYR) (fl : List (Option Frame))
      (_ : fl.length = ws.length) (_ : ∀ k, k < ws.length → fl[k]? =
        some (fs.bind fun l => l[k]?)),
      DlwhGives sort ss fs ⟨⟨LocBlock.header true ws ++ gap ++ ws.flatten ++ rest, ws.length, true,
        ws.length + gap.length, ds⟩, t, fl⟩ := by
    intro gap rest ds l1 h1 t fl hfl hfk
    constructor
    · exact hwl
    · intro k h
      have hk : k < ws.length := by omega
      have hb := startOf_add_le ws k hk
      refine ⟨startOf ws k + 1, ds[k]'(by omega), ?_, by omega, ?_, (h1 k hk (by omega)).2⟩
      · unfold DLWH.LDLW LocBlock.LLOC
        simp only
        rw [List.append_assoc, List.append_assoc]
        exact LocBlock.LLOCof_header true ws _ k hk (by omega)
      · exact LocBlock.get_ok ⟨LocBlock.header true ws ++ gap ++ ws.flatten ++ rest, ws.length, true,
          ws.length + gap.length, ds⟩ l1.symm k (by simp only; omega)
    · intro k h
      have hk : k < ws.length := by omega
      have hfk := hfk k hk
      unfold DLWH.referenceFrame DLW.pick
      simp only
      rw [if_neg (by omega), Nat.add_sub_cancel, hfk]
    · intro k h
      have hk : k < 1 ∨ k > ws.length := by omega
      refine ⟨?_, ?_, ?_⟩
      · unfold DLWH.LDLW LocBlock.LLOC LocBlock.LLOCof LocBlock.verifyDataIndex
        simp only; rw [if_pos hk]; rfl
      · unfold DLWH.distribution LocBlock.get LocBlock.verifyDataIndex
        simp only; rw [if_pos hk]; rfl
      · unfold DLWH.referenceFrame DLW.pick; exact if_pos hk
  -- built
  obtain ⟨ds, l1, h1, h2⟩ := key [] []
  simp only [List.append_nil, List.length_nil, Nat.add_zero] at h2
  have hg := give [] [] ds l1 h1
  simp only [List.append_nil, List.length_nil, Nat.add_zero] at hg
  have htf : ∃ t, TyrhGives fs t ∧
      DLWH.mk' es fs = (do
        let l ← DLWH.generateFrames t ws.length
        return ⟨⟨LocBlock.header true ws ++ ws.flatten, ws.length, true, ws.length, ds⟩, t, l⟩) := by
    have hel : es.length = ws.length := by omega
    unfold DLWH.mk'
    rw [dlwh_words es ws hP, ok_bind, hel, h2, ok_bind]
    cases fs with
    | none => exact ⟨none, trivial, rfl⟩
    | some l =>
      obtain ⟨t, t1, t2, _⟩ := C20_frames l
      refine ⟨some t, ⟨l.map fun _ => 1, ?_, by simp⟩, ?_⟩
      · rw [zip_one]; exact t2
      · simp only [t1, ok_bind]
  obtain ⟨t, ht, hmk⟩ := htf
  obtain ⟨fl, f1, f2, f3⟩ := dlwh_frames ws.length fs t ht (fun l hl => by rw [hwl]; exact hfs l hl)
  rw [f1, ok_bind] at hmk
  refine ⟨_, hmk, ?_, hg t fl f2 f3, ?_⟩
  · simp only [List.length_append, LocBlock.header_length, hPl]; omega
  · intro t' gap rest ht'
    obtain ⟨ds', l1', h1', h2'⟩ := key gap rest
    obtain ⟨fl', g1, g2, g3⟩ := dlwh_frames ws.length fs t' ht' (fun l hl => by rw [hwl]; exact hfs l hl)
    refine ⟨_, ?_, give gap rest ds' l1' h1' t' fl' g2 g3⟩
    simp only
    have e1 : (LocBlock.header true ws ++ ws.flatten).take ss.length = LocBlock.header true ws := by
      rw [List.take_left' (by simp [hwl])]
    have e2 : (LocBlock.header true ws ++ ws.flatten).drop ss.length = ws.flatten := by
      rw [List.drop_left' (by simp [hwl])]
    unfold DLWH.ofRange LocBlock.ofRange
    rw [e1, e2, guardThrow_not_lt (by omega), ok_bind, ← hwl, h2', ok_bind, g1, ok_bind]
    rfl

/-- **C17** (part: law 67, laws 61 and 67 among several, and undefined distributions are missing).
The block gives back the distributions in order, and the frames. -/
theorem C17_built_partial (sort : StdSort EquiEnergy.incident) (ss : List DistSpec)
    (es : List EnergyData) (he : ss.mapM (fun s => s.build sort) = .ok es)
    (hok : ∀ s ∈ ss, s.Ok ∧ s.Fits sort)
    (hf : FitsN (es.length + (es.map distLen).sum + 2)) (fs : Option (List Frame))
    (hfs : ∀ l, fs = some l → ss.length ≤ l.length) :
    ∃ d, DLWH.mk' es fs = .ok d ∧ d.block.xss.length = es.length + (es.map distLen).sum ∧
      DlwhGives sort ss fs d := by
  obtain ⟨d, h1, h2, h3, _⟩ := dlwh_facts sort ss es he hok hf fs hfs
  exact ⟨d, h1, h2, h3⟩

/-- **C17** (same part). The locators and the data of the block, with any words between and after
them, are read as the same distributions, with any TYRH block that has the frames. -/
theorem C17_read_partial (sort : StdSort EquiEnergy.incident) (ss : List DistSpec)
    (es : List EnergyData) (he : ss.mapM (fun s => s.build sort) = .ok es)
    (hok : ∀ s ∈ ss, s.Ok ∧ s.Fits sort)
    (hf : FitsN (es.length + (es.map distLen).sum + 2)) (fs : Option (List Frame))
    (hfs : ∀ l, fs = some l → ss.length ≤ l.length) (d : DLWH) (hd : DLWH.mk' es fs = .ok d)
    (t : Option TYR) (ht : TyrhGives fs t) (gap rest : Words) :
    ∃ d', DLWH.ofRange (d.block.xss.take ss.length ++ gap ++ d.block.xss.drop ss.length ++ rest)
          (ss.length + gap.length) t ss.length = .ok d' ∧ DlwhGives sort ss fs d' := by
  obtain ⟨d1, h1, _, _, h3⟩ := dlwh_facts sort ss es he hok hf fs hfs
  rw [hd] at h1; injection h1 with h1; subst h1
  exact h3 t gap rest ht

/-! ## Undefined distributions -/

theorem read_defined (locator : Nat) (xs : Words) : EnergyData.read locator xs ≠ .ok .undefined := by
  intro h
  unfold EnergyData.read at h
  obtain ⟨_, _, h⟩ := bind_eq_ok.mp h
  obtain ⟨_, _, h⟩ := bind_eq_ok.mp h
  split at h
  · unfold EnergyData.readLaw at h
    obtain ⟨_, _, h⟩ := bind_eq_ok.mp h
    obtain ⟨_, _, h⟩ := bind_eq_ok.mp h
    obtain ⟨_, _, _, _, _, _, h⟩ := readLaw_tail _ _ _ _ h
    injection h with h; cases h
  · obtain ⟨_, _, h⟩ := bind_eq_ok.mp h
    injection h with h; cases h

/-- An undefined distribution has locator 0 in a block that is read. -/
theorem C17_undefined_read (xs : Words) (iter n : Nat) (t : Option TYR) (d : DLWH)
    (h : DLWH.ofRange xs iter t n = .ok d) (k : Nat) (e : EnergyData)
    (he : d.distribution (k + 1) = .ok e) :
    e = .undefined ↔ d.LDLW (k + 1) = .ok 0 := by
  unfold DLWH.ofRange LocBlock.ofRange LocBlock.generateBlocks at h
  simp only [bind_eq_ok] at h
  obtain ⟨b, ⟨_, _, l, hl, hb⟩, fs, _, h⟩ := h
  injection hb with hb; injection h with h; subst h; subst hb
  obtain ⟨hlen, hget⟩ := mapM_ok_iff _ _ _ hl
  rw [List.length_range] at hlen
  unfold DLWH.distribution LocBlock.get LocBlock.verifyDataIndex at he
  simp only at he
  by_cases hk : k + 1 < 1 ∨ k + 1 > n
  · rw [if_pos hk] at he; cases he
  · rw [if_neg hk, ok_bind, Nat.add_sub_cancel, List.getElem?_eq_getElem (by omega)] at he
    injection he with he
    have hg := hget k (by simp; omega) (by omega)
    rw [List.getElem_range, he] at hg
    obtain ⟨loc, left, right, ys, hloc, _, _, _, hg⟩ := LocBlock.generateBlock_inv hg
    have e1 : DLWH.LDLW ⟨⟨xs, n, true, iter, l⟩, t, fs⟩ (k + 1) = .ok loc := hloc
    rw [e1]
    unfold EnergyData.readSecondary at hg
    split at hg
    · next h0 =>
      injection hg with hg
      subst h0; simp [hg]
    · next h0 =>
      constructor
      · intro he; subst he; exact absurd hg (read_defined _ _)
      · intro he; injection he with he; exact absurd he h0

theorem dlwh_loop_locators (size : Nat) (es : List EnergyData) (xss out : Words) (index : Nat)
    (hi : index + es.length ≤ xss.length) (h : DLWH.loop size es xss index = .ok out) :
    (∀ k, k < index → out[k]? = xss[k]?) ∧
    ∀ k, k < es.length → ∃ n, out[index + k]? = some (Dbl.ofNat (n + 1)) := by
  induction es generalizing xss index with
  | nil =>
    injection h with h; subst h
    exact ⟨fun _ _ => rfl, fun k hk => by simp at hk⟩
  | cons e es ih =>
    unfold DLWH.loop at h
    obtain ⟨w, _, h⟩ := bind_eq_ok.mp h
    simp only [List.length_cons] at hi
    obtain ⟨h1, h2⟩ := ih _ _ (by simp; omega) h
    refine ⟨fun k hk => ?_, fun k hk => ?_⟩
    · rw [h1 k (by omega), List.getElem?_append_left (by simp; omega),
        List.getElem?_set_ne (by omega)]
    · cases k with
      | zero =>
        refine ⟨xss.length - size, ?_⟩
        rw [Nat.add_zero, h1 index (by omega), List.getElem?_append_left (by simp; omega),
          List.getElem?_set_self (by omega)]
      | succ k =>
        obtain ⟨n, hn⟩ := h2 k (by simpa using hk)
        exact ⟨n, by rw [← hn]; congr 1; omega⟩

/-- **C17 is false in full**: whatever the distributions, a block that was built never gives back an
undefined one, since it never writes a zero locator. -/
theorem C17_undefined_false (es : List EnergyData) (fs : Option (List Frame)) (d : DLWH)
    (h : DLWH.mk' es fs = .ok d) (k : Nat) : d.distribution k ≠ .ok .undefined := by
  intro he
  have hblock : ∃ xss, DLWH.generateXSS es = .ok xss ∧
      LocBlock.generateBlocks EnergyData.readSecondary xss es.length true es.length = .ok d.block := by
    unfold DLWH.mk' at h
    obtain ⟨xss, hx, h⟩ := bind_eq_ok.mp h
    obtain ⟨b, hb, h⟩ := bind_eq_ok.mp h
    refine ⟨xss, hx, ?_⟩
    cases fs with
    | none =>
      obtain ⟨_, _, h⟩ := bind_eq_ok.mp h
      injection h with h; rw [← h]; exact hb
    | some fs =>
      obtain ⟨_, _, h⟩ := bind_eq_ok.mp h
      obtain ⟨_, _, h⟩ := bind_eq_ok.mp h
      injection h with h; rw [← h]; exact hb
  obtain ⟨xss, hx, hb⟩ := hblock
  have hblk := hb
  unfold LocBlock.generateBlocks at hb
  obtain ⟨l, hl, hb⟩ := bind_eq_ok.mp hb
  injection hb with hb
  have hloc := dlwh_loop_locators _ _ _ _ 0 (by simp) hx
  -- the same block, read
  have hread : DLWH.ofRange xss es.length none es.length =
      .ok ⟨d.block, none, List.replicate es.length none⟩ := by
    unfold DLWH.ofRange LocBlock.ofRange
    rw [guardThrow_not_lt (Nat.le_refl _), ok_bind, hblk]; rfl
  cases k with
  | zero =>
    unfold DLWH.distribution LocBlock.get LocBlock.verifyDataIndex at he
    rw [if_pos (by omega)] at he; cases he
  | succ k =>
    have h0 := (C17_undefined_read _ _ _ _ _ hread k _ he).mp rfl
    unfold DLWH.LDLW LocBlock.LLOC LocBlock.LLOCof LocBlock.verifyDataIndex at h0
    rw [← hb] at h0
    simp only at h0
    split at h0
    · cases h0
    · next hk =>
      obtain ⟨n, hn⟩ := hloc.2 k (by omega)
      rw [Nat.zero_add] at hn
      rw [ok_bind, if_pos trivial] at h0
      obtain ⟨i, hi, h0⟩ := bind_eq_ok.mp h0
      unfold Base.IXSS at hi
      obtain ⟨x, hx', hi⟩ := bind_eq_ok.mp hi
      have := (Base.XSS_eq_ok_iff.mp hx').2
      rw [Nat.add_sub_cancel, hn] at this
      injection this with this; subst this
      rw [Dbl.round?_ofNat] at hi
      have e1 : toInt32 (some ((n + 1 : Nat) : Int)) =
        if -2147483648 ≤ ((n + 1 : Nat) : Int) ∧ ((n + 1 : Nat) : Int) ≤ 2147483647
        then .ok ((n + 1 : Nat) : Int) else .error .ub := rfl
      rw [e1] at hi
      split at hi
      · injection hi with hi; subst hi
        rw [sizeOfInt_natCast (by unfold FitsN; omega)] at h0
        injection h0 with h0; omega
      · cases hi

/-- Reading: an undefined distribution right after a defined one makes the range of that one end in
front of its data. -/
theorem C17_undefined_after (xs : Words) (iter n : Nat) (t : Option TYR) (k : Nat) (hk : k + 1 < n)
    (loc : Nat) (h1 : LocBlock.LLOCof xs n true (k + 1) = .ok loc) (h0 : loc ≠ 0)
    (h2 : LocBlock.LLOCof xs n true (k + 2) = .ok 0) (d : DLWH) :
    DLWH.ofRange xs iter t n ≠ .ok d := by
  intro h
  unfold DLWH.ofRange LocBlock.ofRange LocBlock.generateBlocks at h
  simp only [bind_eq_ok] at h
  obtain ⟨b, ⟨_, _, l, hl, hb⟩, fs, _, h⟩ := h
  obtain ⟨hlen, hget⟩ := mapM_ok_iff _ _ _ hl
  rw [List.length_range] at hlen
  have hg := hget k (by simp; omega) (by omega)
  rw [List.getElem_range] at hg
  obtain ⟨loc1, left, right, ys, g1, hleft, g2, hys, _⟩ := LocBlock.generateBlock_inv hg
  obtain ⟨loc2, g2, hright⟩ := g2 (by omega)
  rw [h1] at g1; injection g1 with g1; subst g1
  rw [h2] at g2; injection g2 with g2; subst g2
  have h3 := (sub_eq_ok hys).1
  unfold Base.iterator Base.verifyIndex at hleft hright
  split at hleft
  · cases hleft
  · split at hright
    · cases hright
    · injection hleft with hleft; injection hright with hright
      omega

/-- Fewer frames than distributions are not noticed: the list is read past its end. -/
theorem C17_few_frames (es : List EnergyData) (fs : List Frame) (h : fs.length < es.length) (d : DLWH) :
    DLWH.mk' es (some fs) ≠ .ok d := by
  intro hd
  unfold DLWH.mk' at hd
  obtain ⟨xss, _, hd⟩ := bind_eq_ok.mp hd
  obtain ⟨b, hb, hd⟩ := bind_eq_ok.mp hd
  obtain ⟨t, ht, hd⟩ := bind_eq_ok.mp hd
  obtain ⟨l, hl, hd⟩ := bind_eq_ok.mp hd
  have hn : b.n = es.length := by
    unfold LocBlock.generateBlocks at hb
    obtain ⟨_, _, hb⟩ := bind_eq_ok.mp hb
    injection hb with hb; rw [← hb]
  have htl : t.frames.length = fs.length := by
    unfold TYR.ofFrames TYR.generateBlocks at ht
    obtain ⟨m, hm, ht⟩ := bind_eq_ok.mp ht
    injection ht with ht; rw [← ht]
    have := (mapM_ok_iff _ _ _ hm).1
    simpa using this
  unfold DLWH.generateFrames at hl
  simp only at hl
  rw [if_neg (by omega)] at hl
  cases hl

/-! ## A case -/

/-- A level law and several laws. -/
def dlwhExample : List DistSpec :=
  [.one (.level (Dbl.ofNat 1) (Dbl.ofNat 20) (Dbl.ofNat 3) (Dbl.ofNat 4)), .several multiExample 100]

example : ∀ s ∈ dlwhExample, s.Ok ∧ s.Fits (sortBy _) := by
  intro r hr
  simp only [dlwhExample, List.mem_cons, List.not_mem_nil, or_false] at hr
  rcases hr with rfl | rfl
  · refine ⟨⟨trivial, trivial, by decide⟩, fun d hd => ?_⟩
    injection hd with hd; subst hd; exact (by decide : FitsN (0 + 2 + 1))
  · exact ⟨⟨multiExample_ok, by decide⟩, multiExample_fits⟩
example : (do
    let es ← dlwhExample.mapM (fun r => r.build (sortBy _))
    let d ← DLWH.mk' es (some [.centreOfMass, .laboratory])
    return ([es.length + (es.map distLen).sum, d.block.xss.length, ← d.LDLW 1, ← d.LDLW 2],
      [← d.referenceFrame 1, ← d.referenceFrame 2])) =
    (.ok ([40, 40, 1, 12], [some .centreOfMass, some .laboratory]) :
      Res (List Nat × List (Option Frame))) := by decide +kernel
-- an undefined distribution, read: first it works, after a defined one it does not
example : (do
    let d ← DLWH.ofRange ([Dbl.ofNat 0, Dbl.ofNat 1, Dbl.ofNat 0, Dbl.ofNat 3, Dbl.ofNat 10, Dbl.ofNat 0,
      Dbl.ofNat 2, Dbl.ofNat 1, Dbl.ofNat 20, Dbl.ofNat 1, Dbl.ofNat 1, Dbl.ofNat 3, Dbl.ofNat 4]) 2 none 2
    return (decide ((← d.distribution 1) = .undefined))) = (.ok true : Res Bool) := by decide +kernel

/-- The hypotheses of the theorems about undefined distributions: the words of the example above, read, and words in
which the undefined distribution follows a defined one. -/
example := C17_undefined_read ([Dbl.ofNat 0, Dbl.ofNat 1, Dbl.ofNat 0, Dbl.ofNat 3, Dbl.ofNat 10, Dbl.ofNat 0,
  Dbl.ofNat 2, Dbl.ofNat 1, Dbl.ofNat 20, Dbl.ofNat 1, Dbl.ofNat 1, Dbl.ofNat 3, Dbl.ofNat 4]) 2 2 none
  ((DLWH.ofRange ([Dbl.ofNat 0, Dbl.ofNat 1, Dbl.ofNat 0, Dbl.ofNat 3, Dbl.ofNat 10, Dbl.ofNat 0,
    Dbl.ofNat 2, Dbl.ofNat 1, Dbl.ofNat 20, Dbl.ofNat 1, Dbl.ofNat 1, Dbl.ofNat 3, Dbl.ofNat 4]) 2 none 2).toOption.getD
      ⟨⟨[], 0, true, 0, []⟩, none, []⟩) (by decide +kernel) 0 .undefined (by decide +kernel)
example := C17_undefined_after [Dbl.ofNat 1, Dbl.ofNat 0, Dbl.ofNat 0, Dbl.ofNat 3, Dbl.ofNat 10, Dbl.ofNat 0] 2 2 none 0
  (by decide) 1 (by decide) (by decide) (by decide)
example := C17_few_frames [.undefined, .undefined] [.laboratory] (by decide)

end ACE.Props
