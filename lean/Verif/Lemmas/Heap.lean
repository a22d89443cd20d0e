import Verif.Model.State
import Verif.Model.Aliasing
import Verif.Spec.ValueSemantics

/-! Lemmas about the heap. -/
set_option linter.unusedSectionVars false
namespace PyClaw
variable {K : Type*}
namespace Heap

theorem poke_not_mem (b : Nat → K) (ps : List (Nat × K)) (i : Nat) (h : i ∉ ps.map Prod.fst) :
    poke b ps i = b i := by
  induction ps generalizing b with
  | nil => rfl
  | cons p ps ih =>
    obtain ⟨j, v⟩ := p
    simp only [List.map_cons, List.mem_cons, not_or] at h
    rw [poke, ih _ h.2, Function.update_of_ne h.1]

/-- Writing through a reference does not change other buffers. -/
theorem write_frame (h : Heap K) (r r' : Ref) (vs : List K) (hne : r'.addr ≠ r.addr) :
    (h.write r vs).read r' = h.read r' := by
  simp [read, write, Function.update_of_ne hne]

theorem write_dict (h : Heap K) (r : Ref) (vs : List K) : (h.write r vs).dict = h.dict := rfl

theorem poke_zip_read (b : Nat → K) (is : List Nat) (vs : List K) (hn : is.Nodup)
    (hl : vs.length = is.length) : is.map (poke b (is.zip vs)) = vs := by
  induction is generalizing b vs with
  | nil => simp at hl; simp [hl]
  | cons i is ih =>
    cases vs with
    | nil => simp at hl
    | cons v vs =>
      rw [List.nodup_cons] at hn
      simp only [List.zip_cons_cons, poke, List.map_cons]
      have hnm : i ∉ (is.zip vs).map Prod.fst := by
        intro hm
        rw [List.mem_map] at hm
        obtain ⟨⟨a, c⟩, hm1, rfl⟩ := hm
        exact hn.1 (List.of_mem_zip hm1).1
      rw [poke_not_mem _ _ _ hnm, Function.update_self, ih _ _ hn.2 (by simpa using hl)]

/-- A write is read back. -/
theorem read_write_self (h : Heap K) (r : Ref) (vs : List K) (hn : r.idx.Nodup)
    (hl : vs.length = r.idx.length) : (h.write r vs).read r = vs := by
  simp only [read, write, Function.update_self]
  exact poke_zip_read _ _ _ hn hl

theorem alloc_read (h : Heap K) (vs : List K) (d : K) : (h.alloc vs d).1.read (h.alloc vs d).2 = vs := by
  simp only [alloc, read, Function.update_self]
  apply List.ext_getElem
  · simp
  · intro i h1 h2
    simp [List.getElem?_eq_getElem h2]

theorem alloc_frame (h : Heap K) (vs : List K) (d : K) (r : Ref) (hr : r.addr < h.next) :
    (h.alloc vs d).1.read r = h.read r := by
  simp [alloc, read, Function.update_of_ne (Nat.ne_of_lt hr)]

theorem read_length (h : Heap K) (r : Ref) : (h.read r).length = r.idx.length := by simp [read]

end Heap
end PyClaw
