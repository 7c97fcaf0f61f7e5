import Verif.Props.TableSpec
import Verif.Lemmas.AgreeOther

/-!
# Words behind the last word of a table
-/

namespace ACE

namespace Padded

variable (d : TableData) (ys : Words)

/-- The words of a block of the padded table: the same or more. -/
def Ext (v v' : Words) : Prop := v' = v ∨ v' = v ++ ys

/-- The iterators of a block of the padded table: the end of the XSS array may have moved. -/
def Ends (r r' : Nat × Nat) : Prop :=
  r'.1 = r.1 ∧ (r' = r ∨ (r.2 = d.xss.length ∧ r'.2 = (d.xss ++ ys).length))

theorem range (start stop : Nat) :
    Up (Ends d ys) (d.range start stop) ((d.padded ys).range start stop) := by
  intro r hr
  unfold TableData.range at hr ⊢
  have hl : (d.padded ys).xss = d.xss ++ ys := rfl
  have hle : d.xss.length ≤ (d.xss ++ ys).length := by simp
  rw [hl]
  split at hr
  · cases hr
  rename_i h1
  rw [if_neg (by omega)]
  split at hr
  · rename_i h2
    rw [if_pos h2]
    exact ⟨_, rfl, Except.ok.inj hr ▸ ⟨rfl, .inr ⟨rfl, rfl⟩⟩⟩
  · rename_i h2
    rw [if_neg h2]
    split at hr
    · cases hr
    rw [if_neg (by omega)]
    exact ⟨_, rfl, Except.ok.inj hr ▸ ⟨rfl, .inl rfl⟩⟩

/-- The words between two positions, the second possibly the end of the array. -/
theorem subs (l r r' : Nat) (h : r' = r ∨ (r = d.xss.length ∧ r' = (d.xss ++ ys).length)) :
    Up (Ext ys) (sub d.xss l r) (sub (d.padded ys).xss l r') := by
  rcases h with h | ⟨h, h'⟩
  · rw [h]
    exact (Longer.sub d.xss ys l r).mono fun _ _ e => .inl e.symm
  · rw [h, h']
    exact (Longer.rest d.xss ys l).mono fun _ _ e => .inr e

theorem Ends.snd {d : TableData} {ys : Words} {r r' : Nat × Nat} (h : Ends d ys r r') :
    r'.2 = r.2 ∨ (r.2 = d.xss.length ∧ r'.2 = (d.xss ++ ys).length) :=
  h.2.elim (fun e => .inl (by rw [e])) .inr

theorem words {r r' : Nat × Nat} (h : Ends d ys r r') :
    Up (Ext ys) (d.words r) ((d.padded ys).words r') := by
  unfold TableData.words
  rw [h.1]
  exact subs d ys _ _ _ h.snd

theorem located {l l' r r' : Nat × Nat} (hl : Ends d ys l l') (hr : Ends d ys r r') :
    Up (fun p p' => p'.2 = p.2 ∧ Ext ys p.1 p'.1) (CE.located d l r) (CE.located (d.padded ys) l' r') := by
  unfold CE.located
  rw [hl.1, hr.1]
  exact Up.step (subs d ys _ _ _ hr.snd) fun v v' _ _ e => Up.pure' ⟨rfl, e⟩

theorem self {α : Type} [Gives α] [GivesSelf α] (r : Res α) : Up Gives.rel r r := Up.refl GivesSelf.self r

/-- A reader of the words of a block. -/
theorem read {α : Type} {R : α → α → Prop} (hR : ∀ b, R b b) {f : Words → Res α} {v v' : Words}
    (h : Ext ys v v') (hf : Up R (f v) (f (v ++ ys))) : Up R (f v) (f v') := by
  rcases h with h | h
  · rw [h]; exact Up.refl hR _
  · rw [h]; exact hf

end Padded

instance {D : Type} [Gives D] [GivesSelf D] : GivesSelf (LocBlock D) := ⟨by selves⟩
instance : GivesSelf IXS := ⟨by selves⟩
instance : GivesSelf IXSU := ⟨by selves⟩
instance : GivesSelf HPD := ⟨by selves⟩
instance : GivesSelf NTRO := ⟨by selves⟩
instance : GivesSelf YP := ⟨by selves⟩
instance : GivesSelf TYR := ⟨by selves⟩
instance : GivesSelf DLW := ⟨by selves⟩
instance : GivesSelf DLWH := ⟨by selves⟩
instance : GivesSelf AngularBlock := ⟨by selves⟩
instance : GivesSelf ElectronBlock := ⟨by selves⟩
instance : GivesSelf (Option NuData) := ⟨fun b => by
  cases b
  · exact trivial
  · exact GivesSelf.self (α := NuData) _⟩
instance : GivesSelf NU := ⟨by selves⟩
instance : GivesSelf BDD := ⟨by selves⟩
instance : GivesSelf UNR := ⟨by selves⟩
instance : GivesSelf ITXE := ⟨by selves⟩


/-! ## Computations whose result is looked at -/

/-- `Up` for results with a property. -/
def UpIf {α : Type} (P : α → Prop) (R : α → α → Prop) (r r' : Res α) : Prop :=
  ∀ v, r = .ok v → P v → ∃ v', r' = .ok v' ∧ R v v'

namespace UpIf

variable {α β : Type}

theorem ofUp {P : α → Prop} {R : α → α → Prop} {r r' : Res α} (h : Up R r r') : UpIf P R r r' :=
  fun v hv _ => h v hv

theorem step {Q : α → Prop} {P : β → Prop} {A : α → α → Prop} {R : β → β → Prop} {r r' : Res α}
    {k k' : α → Res β} (h : UpIf Q A r r') (hp : ∀ v w, k v = .ok w → P w → Q v)
    (hk : ∀ v v', r = .ok v → A v v' → UpIf P R (k v) (k' v')) :
    UpIf P R (r >>= k) (r' >>= k') := by
  intro w hw hP
  obtain ⟨v, hv, hv'⟩ := bind_eq_ok.mp hw
  obtain ⟨v', h1, h2⟩ := h v hv (hp v w hv' hP)
  obtain ⟨w', h3, h4⟩ := hk v v' hv h2 w hv' hP
  exact ⟨w', by rw [h1]; exact h3, h4⟩

/-- A step of any result. -/
theorem up {P : β → Prop} {A : α → α → Prop} {R : β → β → Prop} {r r' : Res α} {k k' : α → Res β}
    (h : Up A r r') (hk : ∀ v v', r = .ok v → A v v' → UpIf P R (k v) (k' v')) :
    UpIf P R (r >>= k) (r' >>= k') :=
  step (Q := fun _ => True) (ofUp h) (fun _ _ _ _ => trivial) hk

theorem bind {P : β → Prop} {R : β → β → Prop} {r r' : Res α} {k k' : α → Res β}
    (h : Up Eq r r') (hk : ∀ v, r = .ok v → UpIf P R (k v) (k' v)) : UpIf P R (r >>= k) (r' >>= k') :=
  up h fun v v' hv e => e ▸ hk v hv

theorem mapM {γ : Type} {P : β → Prop} {R : β → β → Prop} {f f' : γ → Res β} (l : List γ)
    (h : ∀ i ∈ l, UpIf P R (f i) (f' i)) :
    UpIf (fun l => ∀ b ∈ l, P b) (List.Forall₂ R) (l.mapM f) (l.mapM f') := by
  induction l with
  | nil => exact ofUp (Up.pure' .nil)
  | cons i l ih =>
      rw [List.mapM_cons, List.mapM_cons]
      refine step (h i (by simp)) (fun v w hw hP => ?_) fun v v' _ hv =>
        step (ih fun j hj => h j (by simp [hj])) (fun vs w hw hP b hb => ?_) fun vs vs' _ hvs =>
          ofUp (Up.pure' (.cons hv hvs))
      · obtain ⟨vs, _, e⟩ := bind_eq_ok.mp hw
        exact hP v (by rw [← Except.ok.inj e]; simp)
      · exact hP b (by rw [← Except.ok.inj hw]; simp [hb])

/-- A block that is only read when it is present. -/
theorem onlyIf {P : α → Prop} [Gives α] {r r' : Res α} (present : Bool) (h : UpIf P Gives.rel r r') :
    UpIf (fun o => ∀ b, o = some b → P b) Both (CE.onlyIf present r) (CE.onlyIf present r') := by
  unfold CE.onlyIf
  split
  · exact step h (fun v w hw hP => hP v (by rw [← Except.ok.inj hw])) fun _ _ _ hv =>
      ofUp (Up.pure' hv)
  · exact ofUp (Up.ok trivial)

/-- Both absent, or both present and related. -/
def BothBy (R : α → α → Prop) : Option α → Option α → Prop
  | some b, some b' => R b b'
  | none, none => True
  | _, _ => False

/-- The same with a relation of its own. -/
theorem onlyIfR {P : α → Prop} {R : α → α → Prop} {r r' : Res α} (present : Bool) (h : UpIf P R r r') :
    UpIf (fun o => ∀ b, o = some b → P b) (BothBy R) (CE.onlyIf present r) (CE.onlyIf present r') := by
  unfold CE.onlyIf
  split
  · exact step h (fun v w hw hP => hP v (by rw [← Except.ok.inj hw])) fun _ _ _ hv =>
      ofUp (Up.pure' hv)
  · exact ofUp (Up.ok trivial)

end UpIf

/-! ## Blocks -/

namespace Padded

variable (d : TableData) (ys : Words)

theorem tyr {v v' : Words} (h : Ext ys v v') (n : Nat) :
    Up (fun t t' => ∃ w, t' = { t with xss := w }) (TYR.ofRange v n) (TYR.ofRange v' n) := by
  refine read ys (f := fun v => TYR.ofRange v n) (R := fun t t' => ∃ w, t' = { t with xss := w })
    (fun t => ⟨t.xss, rfl⟩) h ?_
  refine Up.bind (Longer.size v ys _) fun _ _ => ?_
  unfold TYR.generateBlocks
  refine Up.bind (Longer.mapEq _ fun i _ => ?_) fun l _ => Up.pure' ⟨v ++ ys, rfl⟩
  unfold TYR.generateBlock
  longer

theorem tyr_gives {t t' : TYR} (h : ∃ w, t' = { t with xss := w }) : t ≼ t' := by
  obtain ⟨w, rfl⟩ := h
  exact ⟨rfl, fun _ => Up.same _, fun _ => Up.same _⟩

theorem dlwTyr (xs ys : Words) (data : Nat) (tyr : TYR) (w : Words) (nr : Nat) :
    DLW.ofRange xs data tyr nr ≼ DLW.ofRange (xs ++ ys) data { tyr with xss := w } nr := by
  refine Up.bind (Up.same _) fun _ _ => ?_
  unfold DLW.generateBlocks
  refine Up.step (Up.mapM _ fun i _ => Longer.dlwPart xs ys nr tyr i) fun l l' _ _ h =>
    Up.bind (Up.same (DLW.firstFrames tyr nr)) fun fs _ => Up.pure' ⟨rfl, fun _ =>
      Up.ite (Up.error _ _) (Longer.IXSS xs ys _),
      fun i => Longer.pick ?_ nr i, fun i => Longer.pick ?_ nr i, fun _ => Up.same _⟩
  · exact List.rel_map (R := fun p p' => p.1 ≼ p'.1 ∧ p.2 ≼ p'.2) (fun _ _ h => h.1) h
  · exact List.rel_map (R := fun p p' => p.1 ≼ p'.1 ∧ p.2 ≼ p'.2) (fun _ _ h => h.2) h

theorem dlw {v v' : Words} (h : Ext ys v v') (data : Nat) {t t' : TYR}
    (ht : ∃ w, t' = { t with xss := w }) (nr : Nat) :
    DLW.ofRange v data t nr ≼ DLW.ofRange v' data t' nr := by
  obtain ⟨w, rfl⟩ := ht
  rcases h with h | h
  · have := dlwTyr v [] data t w nr
    rw [List.append_nil] at this
    rw [h]
    exact this
  · exact h ▸ dlwTyr v ys data t w nr

theorem dlwhTyr (xs ys : Words) (iter : Nat) (t : TYR) (w : Words) (nr : Nat) :
    DLWH.ofRange xs iter (some t) nr ≼ DLWH.ofRange (xs ++ ys) iter (some { t with xss := w }) nr :=
  Up.step (Longer.locBlock xs ys (fun l ws => Longer.secondaryData ws ys l) iter nr true)
    fun b b' _ _ h => Up.bind (Up.same (DLWH.generateFrames (some t) nr)) fun fs _ =>
      Up.pure' ⟨h.1, h.2.1, h.2.2, fun i => by
        show Up _ (DLW.pick b.n fs i) (DLW.pick b'.n fs i)
        rw [h.1]
        exact Up.same _⟩

theorem dlwh {v v' : Words} (h : Ext ys v v') (iter : Nat) {t t' : TYR}
    (ht : ∃ w, t' = { t with xss := w }) (nr : Nat) :
    DLWH.ofRange v iter (some t) nr ≼ DLWH.ofRange v' iter (some t') nr := by
  obtain ⟨w, rfl⟩ := ht
  rcases h with h | h
  · have := dlwhTyr v [] iter t w nr
    rw [List.append_nil] at this
    rw [h]
    exact this
  · exact h ▸ dlwhTyr v ys iter t w nr

/-- The other readers. -/
theorem gives {α : Type} [Gives α] [GivesSelf α] {f : Words → Res α} {v v' : Words}
    (h : Ext ys v v') (hf : f v ≼ f (v ++ ys)) : Up Gives.rel (f v) (f v') :=
  read ys GivesSelf.self h hf

theorem array {v v' : Words} (h : Ext ys v v') (n m : Nat) :
    Up Gives.rel (ArrayData.ofRange v n m) (ArrayData.ofRange v' n m) :=
  gives ys (f := fun v => ArrayData.ofRange v n m) h (Longer.array v ys n m)

theorem yp {v v' : Words} (h : Ext ys v v') :
    UpIf (fun b : YP => b.xss ≠ []) Gives.rel (YP.ofRange v) (YP.ofRange v') := by
  intro b hb hne
  have e : b.xss = v := by
    obtain ⟨_, _, h2⟩ := bind_eq_ok.mp hb
    obtain ⟨_, _, h3⟩ := bind_eq_ok.mp h2
    rw [← Except.ok.inj h3]
  exact gives ys (f := YP.ofRange) h (Longer.yp ys (e ▸ hne)) b hb

theorem unr {v v' : Words} (h : Ext ys v v') :
    UpIf (fun b : UNR => b.xss ≠ []) Gives.rel (UNR.ofRange v) (UNR.ofRange v') := by
  intro b hb hne
  have e : b.xss = v := by
    obtain ⟨_, _, h2⟩ := bind_eq_ok.mp hb
    obtain ⟨_, _, h3⟩ := bind_eq_ok.mp h2
    obtain ⟨_, _, h4⟩ := bind_eq_ok.mp h3
    rw [← Except.ok.inj h4]
  exact gives ys (f := UNR.ofRange) h (Longer.unr ys (e ▸ hne)) b hb

theorem itie {v v' : Words} (h : Ext ys v v') :
    UpIf (fun b : ITIE => b.xss ≠ []) Gives.rel (ITIE.ofRange v) (ITIE.ofRange v') := by
  intro b hb hne
  have e : b.xss = v := by
    unfold ITIE.ofRange ColumnData.ofRange at hb
    cases v with
    | nil =>
        obtain ⟨_, _, h2⟩ := bind_eq_ok.mp hb
        obtain ⟨_, _, h3⟩ := bind_eq_ok.mp h2
        rw [← Except.ok.inj h3]
    | cons x v =>
        obtain ⟨_, _, h2⟩ := bind_eq_ok.mp hb
        obtain ⟨_, _, h3⟩ := bind_eq_ok.mp h2
        rw [← Except.ok.inj h3]
  exact gives ys (f := ITIE.ofRange) h (Longer.column ys (e ▸ hne) 2) b hb


/-! ## Tables -/

theorem rangeStop (start stop : Nat) (h : stop ≠ 0) :
    Up Eq (d.range start stop) ((d.padded ys).range start stop) := by
  intro r hr
  refine ⟨r, ?_, rfl⟩
  unfold TableData.range at hr ⊢
  have hl : (d.padded ys).xss = d.xss ++ ys := rfl
  have hle : d.xss.length ≤ (d.xss ++ ys).length := by simp
  rw [hl]
  split at hr
  · cases hr
  rename_i h1
  rw [if_neg (by omega), if_neg h]
  try rw [if_neg h] at hr
  split at hr
  · cases hr
  rw [if_neg (by omega)]
  exact hr

theorem setSZA (zaid : List Char) :
    Up (fun v v' => v' = v.padded ys) (d.setSZA zaid) ((d.padded ys).setSZA zaid) := by
  have set (d : TableData) (i : Nat) (v : Int) :
      Up (fun v v' => v' = v.padded ys) (d.setNXS i v) ((d.padded ys).setNXS i v) := by
    unfold TableData.setNXS
    exact Up.bind (Up.same _) fun _ _ => Up.pure' rfl
  unfold TableData.setSZA
  refine Up.bind (Up.same (d.NXS 9)) fun _ _ => Up.bind (Up.same (d.NXS 10)) fun _ _ =>
    Up.bind (Up.same (d.NXS 11)) fun _ _ => Up.ite ?_ (Up.pure' rfl)
  refine Up.bind (Up.same _) fun _ _ => Up.step (set d _ _) fun v v' _ _ e => ?_
  subst e
  refine Up.step (set v _ _) fun w w' _ _ e => ?_
  subst e
  exact set w _ _

theorem setSZA_jxs (zaid : List Char) {v : TableData} (h : d.setSZA zaid = .ok v) : v.jxs = d.jxs := by
  have set {d v : TableData} {i : Nat} {x : Int} (h : d.setNXS i x = .ok v) : v.jxs = d.jxs := by
    obtain ⟨_, _, h⟩ := bind_eq_ok.mp h
    rw [← Except.ok.inj h]
  unfold TableData.setSZA at h
  obtain ⟨_, _, h⟩ := bind_eq_ok.mp h
  obtain ⟨_, _, h⟩ := bind_eq_ok.mp h
  obtain ⟨_, _, h⟩ := bind_eq_ok.mp h
  split at h
  · obtain ⟨_, _, h⟩ := bind_eq_ok.mp h
    obtain ⟨_, h1, h⟩ := bind_eq_ok.mp h
    obtain ⟨_, h2, h⟩ := bind_eq_ok.mp h
    rw [set h, set h2, set h1]
  · rw [← Except.ok.inj h]

/-! ### Dosimetry -/

theorem offset (i : Nat) : Up Eq (d.offset i) ((d.padded ys).offset i) := by
  refine Up.bind (Up.same (d.JXS i)) fun j _ => ?_
  intro r hr
  refine ⟨r, ?_, rfl⟩
  have hl : (d.padded ys).xss.length = d.xss.length + ys.length := List.length_append
  split at hr
  · cases hr
  · rw [if_neg (by rw [hl]; omega)]
    exact hr

theorem dosimetry (zaid : List Char) :
    Dosimetry.ofTable zaid d ≼ Dosimetry.ofTable zaid (d.padded ys) := by
  refine Up.bind (Up.same _) fun _ _ => ?_
  unfold Dosimetry.generateBlocks
  refine Up.bind (offset d ys 3) fun mtr _ => Up.bind (offset d ys 6) fun lsig _ =>
    Up.bind (offset d ys 7) fun sig _ => Up.bind (Up.same (d.count 4)) fun ntr _ =>
    Up.bind (Longer.sub d.xss ys _ _) fun w _ => Up.bind (Up.same _) fun m _ => ?_
  refine Up.step (located d ys (l := (lsig, sig)) (r := (sig, d.xss.length)) ⟨rfl, .inl rfl⟩
    ⟨rfl, .inr ⟨rfl, rfl⟩⟩) fun ls ls' _ _ h => ?_
  rw [h.1]
  exact Up.step (gives ys (f := fun v => SIGD.ofRange v ls.2 ntr) h.2
    (Longer.locBlock ls.1 ys (fun _ ws => Longer.tabulated ws ys) ls.2 ntr true)) fun s s' _ _ hs =>
      Up.pure' ⟨rfl, ⟨rfl, rfl, rfl, rfl⟩, GivesSelf.self m, hs⟩


/-! ### Thermal scattering -/

theorem block (index : Nat) : Up (Ends d ys) (TS.block d index) (TS.block (d.padded ys) index) := by
  unfold TS.block
  refine Up.bind (Up.same (d.locator index)) fun start _ => Up.ite (Up.error _ _) ?_
  show Up _ (match (d.jxs.drop (TS.scanFrom index)).find? (fun value => decide (start ≤ sizeOfInt value)) with
    | none => d.range start 0
    | some value => d.range start (sizeOfInt value)) (match (d.jxs.drop (TS.scanFrom index)).find?
      (fun value => decide (start ≤ sizeOfInt value)) with
    | none => (d.padded ys).range start 0
    | some value => (d.padded ys).range start (sizeOfInt value))
  cases (d.jxs.drop (TS.scanFrom index)).find? (fun value => decide (start ≤ sizeOfInt value)) with
  | none => exact range d ys _ _
  | some value => exact range d ys _ _

theorem readITIE (present : Bool) : UpIf (fun b : ITIE => b.xss ≠ [] ∨ present = false) Gives.rel
    (TS.readITIE d present) (TS.readITIE (d.padded ys) present) := by
  unfold TS.readITIE
  cases present with
  | false => exact UpIf.ofUp (self _)
  | true =>
      refine UpIf.up (block d ys 1) fun r r' _ h => UpIf.up (words d ys h) fun w w' _ hw => ?_
      intro b hb hP
      exact itie ys hw b hb (hP.resolve_right (by simp))

theorem readITXE (present : Bool) {b b' : ITIE} (h : b ≼ b') :
    TS.readITXE d present b ≼ TS.readITXE (d.padded ys) present b' := by
  unfold TS.readITXE
  cases present with
  | false => exact self _
  | true =>
      refine Up.step (block d ys 3) fun r r' _ _ hr => Up.bind (Up.same (d.count 7)) fun ifeng _ =>
        Up.bind (Up.same (d.count 3)) fun nil _ => Up.bind (Up.same (d.count 4)) fun nieb _ =>
        Up.bind h.2.1 fun ne _ => Up.bind (Up.same (d.locator 3)) fun locb _ =>
        Up.step (words d ys hr) fun w w' _ _ hw => ?_
      generalize (if ifeng < 2 then nieb else 0) = m
      generalize (if ifeng < 2 then (nil + 1) % 4294967296 else (nil + 4294967295) % 4294967296) = n
      exact gives ys (f := fun w => ITXE.ofRange ifeng m n ne locb w) hw (Longer.itxe w ys _ _ _ _ _)

theorem readCoherent : UpIf (fun p : ITIE × Option ITCA => p.1.xss ≠ [])
    (fun p p' => p.1 ≼ p'.1 ∧ Both p.2 p'.2) (TS.readCoherent d) (TS.readCoherent (d.padded ys)) := by
  unfold TS.readCoherent
  refine UpIf.up (block d ys 4) fun r r' _ h => UpIf.up (words d ys h) fun w w' _ hw =>
    UpIf.step (itie ys hw) (fun v p hp hP => ?_) fun b b' _ hb =>
      UpIf.bind (Up.same (d.signed 6)) fun ncl _ => UpIf.ofUp (Up.ite ?_ ?_)
  · obtain ⟨ncl, _, h2⟩ := bind_eq_ok.mp hp
    split at h2
    · obtain ⟨_, _, h3⟩ := bind_eq_ok.mp h2
      obtain ⟨_, _, h4⟩ := bind_eq_ok.mp h3
      obtain ⟨_, _, h5⟩ := bind_eq_ok.mp h4
      obtain ⟨_, _, h6⟩ := bind_eq_ok.mp h5
      rw [← Except.ok.inj h6] at hP
      exact hP
    · rw [← Except.ok.inj h2] at hP
      exact hP
  · exact Up.step (block d ys 6) fun r r' _ _ h => Up.step (words d ys h) fun w w' _ _ hw =>
      Up.bind hb.2.1 fun ne _ => Up.step (array ys hw _ _) fun a a' _ _ ha => Up.pure' ⟨hb, ha⟩
  · exact Up.pure' ⟨hb, trivial⟩

theorem readIncoherent (idpnc : Nat) : UpIf (fun p : ITIE × ITCA => p.1.xss ≠ [])
    (fun p p' => p.1 ≼ p'.1 ∧ p.2 ≼ p'.2) (TS.readIncoherent d idpnc)
    (TS.readIncoherent (d.padded ys) idpnc) := by
  unfold TS.readIncoherent
  refine UpIf.up (block d ys _) fun r r' _ h => UpIf.up (words d ys h) fun w w' _ hw =>
    UpIf.step (itie ys hw) (fun v p hp hP => ?_) fun b b' _ hb =>
      UpIf.bind (Up.same (d.signed _)) fun ncl _ => UpIf.ofUp ?_
  · obtain ⟨_, _, h2⟩ := bind_eq_ok.mp hp
    obtain ⟨_, _, h3⟩ := bind_eq_ok.mp h2
    obtain ⟨_, _, h4⟩ := bind_eq_ok.mp h3
    obtain ⟨_, _, h5⟩ := bind_eq_ok.mp h4
    obtain ⟨_, _, h6⟩ := bind_eq_ok.mp h5
    rw [← Except.ok.inj h6] at hP
    exact hP
  · exact Up.step (block d ys _) fun r r' _ _ h => Up.step (words d ys h) fun w w' _ _ hw =>
      Up.bind hb.2.1 fun ne _ => Up.step (array ys hw _ _) fun a a' _ _ ha => Up.pure' ⟨hb, ha⟩


theorem thermal (zaid : List Char) : UpIf (fun t : TS =>
      (t.itie.xss ≠ [] ∨ ∃ j, d.JXS 1 = .ok j ∧ j ≤ 0) ∧ (∀ b, t.itce = some b → b.xss ≠ []) ∧
      (∀ b, t.itcei = some b → b.xss ≠ [])) Gives.rel
    (TS.ofTable zaid d) (TS.ofTable zaid (d.padded ys)) := by
  refine UpIf.bind (Up.same _) fun _ _ => ?_
  unfold TS.generateBlocks
  intro t ht hP
  obtain ⟨j, h1, ht⟩ := bind_eq_ok.mp ht
  obtain ⟨itie, h2, ht⟩ := bind_eq_ok.mp ht
  obtain ⟨itxe, h3, ht⟩ := bind_eq_ok.mp ht
  obtain ⟨idpnc, h4, ht⟩ := bind_eq_ok.mp ht
  obtain ⟨c, h5, ht⟩ := bind_eq_ok.mp ht
  obtain ⟨i, h6, ht⟩ := bind_eq_ok.mp ht
  have ht := Except.ok.inj ht
  subst ht
  obtain ⟨p1, p2, p3⟩ := hP
  obtain ⟨itie', e2, g2⟩ := readITIE d ys _ itie h2 (p1.imp_right fun ⟨k, hk, hk0⟩ => by
    rw [h1] at hk
    rw [Except.ok.inj hk]
    exact decide_eq_false (by omega))
  obtain ⟨itxe', e3, g3⟩ := readITXE d ys _ g2 itxe h3
  obtain ⟨c', e5, g5⟩ := UpIf.onlyIfR (decide (idpnc > 3)) (readCoherent d ys) c h5 (fun b hb => by
    subst hb; exact p2 _ rfl)
  obtain ⟨i', e6, g6⟩ := UpIf.onlyIfR (decide (idpnc = 3 ∨ idpnc = 5)) (readIncoherent d ys idpnc) i h6
    (fun b hb => by subst hb; exact p3 _ rfl)
  refine ⟨_, by
    rw [show (d.padded ys).JXS 1 = .ok j from h1, ok_bind]
    dsimp only
    rw [e2, ok_bind, e3, ok_bind, show (d.padded ys).count 5 = .ok idpnc from h4, ok_bind, e5, ok_bind, e6, ok_bind]; rfl, ?_⟩
  refine ⟨rfl, ⟨rfl, rfl, rfl, rfl⟩, g2, g3, ?_, ?_, ?_, ?_⟩
  all_goals
    rcases c with _ | c <;> rcases c' with _ | c' <;> rcases i with _ | i <;> rcases i' with _ | i' <;>
      first
        | exact g5.elim
        | exact g6.elim
        | exact trivial
        | exact g5.1
        | exact g5.2
        | exact g6.1
        | exact g6.2

end Padded

end ACE
