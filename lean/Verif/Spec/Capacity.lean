import Verif.Model.Capacity
import Verif.Spec.Vector
/-!
# Specification of reserved memory

What `Vector::reserve` promises (src/vector.rs:109-113): room for that many more elements.
-/
namespace Flatdata.Spec

/-- The vector holds the elements `l`, in memory it owns. -/
structure IsVector (m size : Nat) (l : List Bytes) (v : CapVec) : Prop where
  all : ∀ x ∈ l, x.length = size
  eq : v.data = l.flatten ++ zeros 8
  room : v.data.length ≤ v.cap
  cap : 2 * v.cap < m

/-- `n` elements are added one after the other, each of them filled in through its handle. -/
inductive GrowsBy {m : Nat} (A : Allocator m) (p : Profile) (e : Endian) (S : StructDef) : Nat → CapVec → CapVec → Prop
  | zero (v : CapVec) : GrowsBy A p e S 0 v v
  | succ {n : Nat} {v w x y : CapVec} {pos : Nat} {ops : List HandleOp} : GrowsBy A p e S n v w →
      CapVec.grow A p S.size w = .ok (x, pos) → CapVec.writeAt p e S x pos ops = .ok y → GrowsBy A p e S (n + 1) v y

/-- There is room for `k` more elements: adding them neither panics nor allocates. -/
def RoomFor {m : Nat} (A : Allocator m) (p : Profile) (e : Endian) (S : StructDef) (k : Nat) (v : CapVec) : Prop :=
  ∀ n w, GrowsBy A p e S n v w → n ≤ k → w.allocs = v.allocs ∧ (n < k → ∃ r, CapVec.grow A p S.size w = .ok r)

/-- A history uses indices of elements that exist, when there are `n` at the beginning. -/
def InRange : List VecOp → Nat → Prop
  | [], _ => True
  | .grow _ :: ops, n => InRange ops (n + 1)
  | .reserve _ :: ops, n => InRange ops n
  | .atMut i _ :: ops, n => i < n ∧ InRange ops n

instance decInRange : (ops : List VecOp) → (n : Nat) → Decidable (InRange ops n)
  | [], _ => inferInstanceAs (Decidable True)
  | .grow _ :: ops, n => decInRange ops (n + 1)
  | .reserve _ :: ops, n => decInRange ops n
  | .atMut i _ :: ops, n =>
    have := decInRange ops n
    inferInstanceAs (Decidable (i < n ∧ InRange ops n))

/-- Memory needed by a history on a host with `m` values of `usize`: all elements plus padding, and all reservations, stay below
`isize::MAX`. -/
def HostRoom (m size : Nat) : List VecOp → Nat → Prop
  | [], n => 2 * (n * size + 8) < m
  | .grow _ :: ops, n => HostRoom m size ops (n + 1)
  | .reserve k :: ops, n => 2 * ((n + k) * size + 16) < m ∧ HostRoom m size ops n
  | .atMut _ _ :: ops, n => HostRoom m size ops n

instance decHostRoom (m size : Nat) : (ops : List VecOp) → (n : Nat) → Decidable (HostRoom m size ops n)
  | [], n => inferInstanceAs (Decidable (2 * (n * size + 8) < m))
  | .grow _ :: ops, n => decHostRoom m size ops (n + 1)
  | .reserve k :: ops, n =>
    have := decHostRoom m size ops n
    inferInstanceAs (Decidable (2 * ((n + k) * size + 16) < m ∧ HostRoom m size ops n))
  | .atMut _ _ :: ops, n => decHostRoom m size ops n

/-- The allocator gives whatever fits into the address space. -/
def Obliging {m : Nat} (A : Allocator m) : Prop :=
  (∀ n, 2 * n < m → ∃ c, A.fresh n = some c) ∧ ∀ cap need, 2 * need < m → ∃ c, A.next cap need = some c

/-- The allocator that gives exactly what is asked for. -/
def exactly (m : Nat) : Allocator m where
  fresh n := if 2 * n < m then some n else none
  next _ need := if 2 * need < m then some need else none
  fresh_enough n c h := by
    split at h
    · cases h; exact ⟨Nat.le_refl _, by assumption⟩
    · cases h
  next_enough cap need c h := by
    split at h
    · cases h; exact ⟨Nat.le_refl _, by assumption⟩
    · cases h

/-- The allocator that doubles the capacity, as std does at present; it gives up if that does not fit. -/
def doubling (m : Nat) : Allocator m where
  fresh n := if 2 * n < m then some n else none
  next cap need := if 2 * max (2 * cap) need < m then some (max (2 * cap) need) else none
  fresh_enough n c h := by
    split at h
    · cases h; exact ⟨Nat.le_refl _, by assumption⟩
    · cases h
  next_enough cap need c h := by
    split at h
    · cases h; exact ⟨Nat.le_max_right _ _, by assumption⟩
    · cases h

end Flatdata.Spec
