import Mathlib.Data.List.Forall2
import Verif.Props.AgreeSpec
import Verif.Model.Continuous
import Verif.Model.Dosimetry
import Verif.Model.ThermalTable
import Verif.Model.Photoatomic
import Verif.Model.Photonuclear

/-!
# Specification: a table that gives everything another table gives

`t ≼ t'` for two tables of a class: the identification, the NXS, JXS, IZ and AW arrays are the same,
the same blocks are there and each block of `t'` gives everything the block of `t` gives.
-/

namespace ACE

/-- The same generic table with more words at the end of its XSS array. -/
def TableData.padded (d : TableData) (ys : Words) : TableData := { d with xss := d.xss ++ ys }

/-- The block of JXS(`index`) ends at the first locator behind `index` that is not less than its own:
there is such a locator (if there is none, the block ends with the XSS array). -/
def TableData.EndedByJXS (d : TableData) (index : Nat) : Prop :=
  ∃ v ∈ d.jxs.drop index, ∀ start, d.locator index = .ok start → start ≤ sizeOfInt v

/-- Both absent, or both present and related. -/
def Both {α : Type} [Gives α] : Option α → Option α → Prop
  | some b, some b' => b ≼ b'
  | none, none => True
  | _, _ => False

/-- All arrays but XSS. -/
instance : Gives TableData := ⟨fun d d' => d.nxs = d'.nxs ∧ d.jxs = d'.jxs ∧ d.iz = d'.iz ∧ d.aw = d'.aw⟩

instance : Gives Dosimetry := ⟨fun t t' => t.zaid = t'.zaid ∧ t.data ≼ t'.data ∧ t.mtr ≼ t'.mtr ∧
  t.sigd ≼ t'.sigd⟩

instance : Gives TS := ⟨fun t t' => t.zaid = t'.zaid ∧ t.data ≼ t'.data ∧ t.itie ≼ t'.itie ∧
  t.itxe ≼ t'.itxe ∧ Both t.itce t'.itce ∧ Both t.itca t'.itca ∧ Both t.itcei t'.itcei ∧
  Both t.itcai t'.itcai⟩

instance : Gives Particle := ⟨fun p p' => p.hpd ≼ p'.hpd ∧ p.mtrh ≼ p'.mtrh ∧ p.tyrh ≼ p'.tyrh ∧
  p.sigh ≼ p'.sigh ∧ p.andh ≼ p'.andh ∧ p.dlwh ≼ p'.dlwh ∧ p.yh ≼ p'.yh⟩

instance : Gives CE := ⟨fun t t' => t.zaid = t'.zaid ∧ t.data ≼ t'.data ∧ t.esz ≼ t'.esz ∧
  Both t.nu t'.nu ∧ t.mtr ≼ t'.mtr ∧ t.lqr ≼ t'.lqr ∧ t.tyr ≼ t'.tyr ∧ t.sig ≼ t'.sig ∧ t.ang ≼ t'.ang ∧
  t.dlw ≼ t'.dlw ∧ Both t.gpd t'.gpd ∧ Both t.mtrp t'.mtrp ∧ Both t.sigp t'.sigp ∧
  Both t.andp t'.andp ∧ Both t.dlwp t'.dlwp ∧ Both t.yp t'.yp ∧ Both t.unr t'.unr ∧ Both t.dnu t'.dnu ∧
  Both t.bdd t'.bdd ∧ Both t.dned t'.dned ∧ Both t.ptype t'.ptype ∧ Both t.ntro t'.ntro ∧
  Both t.ixs t'.ixs ∧ List.Forall₂ (· ≼ ·) t.particles t'.particles⟩

instance : Gives PN.Particle := ⟨fun p p' => p.pxs ≼ p'.pxs ∧ p.phn ≼ p'.phn ∧ p.mtrh ≼ p'.mtrh ∧
  p.tyrh ≼ p'.tyrh ∧ p.sigh ≼ p'.sigh ∧ p.andh ≼ p'.andh ∧ p.dlwh ≼ p'.dlwh⟩

instance : Gives PN := ⟨fun t t' => t.zaid = t'.zaid ∧ t.data ≼ t'.data ∧ t.eszu ≼ t'.eszu ∧
  t.mtr ≼ t'.mtr ∧ t.lqr ≼ t'.lqr ∧ t.sig ≼ t'.sig ∧ Both t.ixsu t'.ixsu ∧
  List.Forall₂ (· ≼ ·) t.particles t'.particles⟩

/-- The blocks JINC, JCOH and XPROB, which take their sizes from the number of words, are the same. -/
instance : Gives PA := ⟨fun t t' => t.zaid = t'.zaid ∧ t.data ≼ t'.data ∧ t.eszg ≼ t'.eszg ∧
  t.jinc = t'.jinc ∧ t.jcoh = t'.jcoh ∧ Both t.jflo t'.jflo ∧ t.lhnm ≼ t'.lhnm ∧ Both t.eps t'.eps ∧
  Both t.swd t'.swd ∧ Both t.subsh t'.subsh ∧ Both t.sphel t'.sphel ∧ t.xprob = t'.xprob ∧
  Both t.esze t'.esze ∧ Both t.excit t'.excit ∧ Both t.elas t'.elas ∧
  List.Forall₂ (· ≼ ·) t.eion t'.eion ∧ Both t.breme t'.breme ∧ Both t.breml t'.breml ∧
  Both t.selas t'.selas⟩

end ACE
