import Verif.Base.Bytes
import Mathlib.Tactic.Ring
/-! # Output streams: appending and overwriting -/
namespace Copc.OStream

/-- A stream that has not failed and has no size limit. -/
def Good (o : OStream) : Prop := o.fail = false ∧ o.cap = none

theorem write_good {o : OStream} (h : o.Good) (bs : Bytes) :
    o.write bs = { o with
      data := patch o.data o.pos bs
      pos := o.pos + bs.length } := by
  unfold write
  rw [h.1, h.2]
  rfl

theorem patch_end (data bs : Bytes) : patch data data.length bs = data ++ bs := by
  simp [patch]

/-- Overwriting the middle of the data. -/
theorem patch_mid {a m c bs : Bytes} (h : m.length = bs.length) :
    patch (a ++ (m ++ c)) a.length bs = a ++ (bs ++ c) := by
  unfold patch
  have e : a.length - (a ++ (m ++ c)).length = 0 := by simp
  rw [e, List.take_left' rfl, ← h]
  have e2 : (a ++ (m ++ c)).drop (a.length + m.length) = c := by
    rw [← List.append_assoc, List.drop_left' (by simp)]
  rw [e2]
  simp

@[simp] theorem good_write {o : OStream} (bs : Bytes) (h : o.Good) : (o.write bs).Good := by
  rw [write_good h]; exact h

@[simp] theorem good_seekp {o : OStream} (p : Nat) (h : o.Good) : (o.seekp p).Good := by
  simp only [seekp, h.1, Bool.false_eq_true, if_false]; exact ⟨rfl, h.2⟩

@[simp] theorem good_seekEnd {o : OStream} (h : o.Good) : o.seekEnd.Good := by
  simp only [seekEnd, h.1, Bool.false_eq_true, if_false]; exact ⟨rfl, h.2⟩

/-- A good stream at its end. -/
def AtEnd (o : OStream) : Prop := o.Good ∧ o.pos = o.data.length

/-- A good stream at its end holding `d`. -/
def Holds (o : OStream) (d : Bytes) : Prop := o = ⟨d, d.length, false, none⟩

theorem holds_iff {o : OStream} {d : Bytes} : o.Holds d ↔ o.AtEnd ∧ o.data = d := by
  unfold Holds AtEnd Good
  constructor
  · rintro rfl; exact ⟨⟨⟨rfl, rfl⟩, rfl⟩, rfl⟩
  · rcases o with ⟨data, pos, fail, cap⟩
    rintro ⟨⟨⟨h1, h2⟩, h3⟩, h4⟩
    simp only at h1 h2 h3 h4
    subst h1 h2 h4 h3
    rfl

theorem Holds.write {o : OStream} {d : Bytes} (h : o.Holds d) (bs : Bytes) :
    (o.write bs).Holds (d ++ bs) := by
  unfold Holds at h ⊢
  subst h
  rw [write_good ⟨rfl, rfl⟩]
  simp [patch_end]

theorem Holds.seekEnd {o : OStream} {d : Bytes} (h : o.Holds d) : o.seekEnd.Holds d := by
  unfold Holds at h ⊢
  subst h
  rfl

theorem Holds.tellp {o : OStream} {d : Bytes} (h : o.Holds d) : o.tellp = d.length := by
  subst h
  rfl

theorem Holds.data {o : OStream} {d : Bytes} (h : o.Holds d) : o.data = d := by subst h; rfl

/-- The stream holds `a ++ b` and is positioned after `a`. -/
def HoldsAt (o : OStream) (a b : Bytes) : Prop := o = ⟨a ++ b, a.length, false, none⟩

theorem Holds.seekp {o : OStream} {a b : Bytes} (h : o.Holds (a ++ b)) :
    (o.seekp a.length).HoldsAt a b := by
  unfold Holds at h; unfold HoldsAt
  subst h
  rfl

theorem HoldsAt.seekp {o : OStream} {a b c d : Bytes} (h : o.HoldsAt a b) (e : a ++ b = c ++ d) :
    (o.seekp c.length).HoldsAt c d := by
  unfold HoldsAt at *
  subst h
  simp [OStream.seekp, e]

theorem HoldsAt.seekEnd {o : OStream} {a b : Bytes} (h : o.HoldsAt a b) : o.seekEnd.Holds (a ++ b) := by
  unfold HoldsAt at h; unfold Holds
  subst h
  rfl

/-- Writing over bytes that are there. -/
theorem HoldsAt.write {o : OStream} {a m c bs : Bytes} (h : o.HoldsAt a (m ++ c))
    (hl : m.length = bs.length) : (o.write bs).HoldsAt (a ++ bs) c := by
  unfold HoldsAt at *
  subst h
  rw [write_good ⟨rfl, rfl⟩]
  simp only
  rw [patch_mid hl]
  simp

theorem HoldsAt.tellp {o : OStream} {a b : Bytes} (h : o.HoldsAt a b) : o.tellp = a.length := by
  subst h; rfl

theorem HoldsAt.data {o : OStream} {a b : Bytes} (h : o.HoldsAt a b) : o.data = a ++ b := by
  subst h; rfl

/-- Writing in the middle: the bytes under the written range are replaced. -/
theorem HoldsAt.write_take {o : OStream} {a b bs : Bytes} (h : o.HoldsAt a b)
    (hl : bs.length ≤ b.length) : (o.write bs).HoldsAt (a ++ bs) (b.drop bs.length) := by
  have e : b = b.take bs.length ++ b.drop bs.length := (List.take_append_drop _ _).symm
  rw [e] at h
  exact h.write (by simp [hl])

/-- Writing past the end of what is there. -/
theorem HoldsAt.write_any {o : OStream} {a b bs : Bytes} (h : o.HoldsAt a b) :
    (o.write bs).HoldsAt (a ++ bs) (b.drop bs.length) := by
  by_cases hl : bs.length ≤ b.length
  · exact h.write_take hl
  · unfold HoldsAt at *
    subst h
    rw [write_good ⟨rfl, rfl⟩]
    have e : patch (a ++ b) a.length bs = a ++ bs := by
      unfold patch
      have : a.length - (a ++ b).length = 0 := by simp
      rw [this, List.take_left' rfl, List.drop_eq_nil_of_le (by simp; omega)]
      simp
    have e2 : b.drop bs.length = [] := List.drop_eq_nil_of_le (by omega)
    simp [e, e2]

end Copc.OStream
