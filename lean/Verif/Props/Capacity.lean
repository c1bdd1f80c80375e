import Verif.Proofs.Capacity
import Verif.Model.Coappearances
/-!
# C68: what `reserve` promises; C69: vectors on hosts with any width of `usize`
-/
namespace Flatdata
open Spec

/-! ## C68 -/

/-- The first promise of `reserve` (src/vector.rs:109-113): when it returns, there is room for `k` more elements. -/
def C68_claim : Prop :=
  ∀ (m : Nat) (A : Allocator m) (p : Profile) (e : Endian) (S : StructDef) (l : List Bytes) (v v' : CapVec) (k : Nat),
    0 < S.size → 2 * S.size < m → IsVector m S.size l v → CapVec.reserve A p S.size v k = .ok v' → RoomFor A p e S k v'

/-- The second promise: if there is room for `k` more elements already, it does nothing. -/
def C68_idle_claim : Prop :=
  ∀ (m : Nat) (A : Allocator m) (p : Profile) (e : Endian) (S : StructDef) (l : List Bytes) (v v' : CapVec) (k : Nat),
    0 < S.size → 2 * S.size < m → IsVector m S.size l v → RoomFor A p e S k v → CapVec.reserve A p S.size v k = .ok v' → v' = v

/-- Exactly when the first promise is kept: if the number of bytes fits into `usize`. -/
theorem C68_reserve_exact {m : Nat} (A : Allocator m) (p : Profile) (e : Endian) (S : StructDef) (l : List Bytes) (v v' : CapVec)
    (k : Nat) (hs : 0 < S.size) (hs' : 2 * S.size < m) (h : IsVector m S.size l v)
    (hr : CapVec.reserve A p S.size v k = .ok v') :
    RoomFor A p e S k v' ↔ (l.length + k) * S.size + 8 < m := by
  have h' := CapVec.reserve_spec h hr
  rw [CapVec.roomFor_iff hs hs' h']
  constructor
  · intro hc; have := h'.cap; omega
  · intro hc
    rw [CapVec.reserve_eq hs h hc] at hr
    obtain ⟨_, b, _, _, _⟩ := CapVec.vecReserve_spec hr h.room h.cap
    have := h.len_data
    rw [Nat.add_mul]
    omega

/-- The first promise, with overflow checks or for sizes that fit. -/
theorem C68_reserve_partial {m : Nat} (A : Allocator m) (p : Profile) (e : Endian) (S : StructDef) (l : List Bytes) (v v' : CapVec)
    (k : Nat) (hs : 0 < S.size) (hs' : 2 * S.size < m) (h : IsVector m S.size l v)
    (hr : CapVec.reserve A p S.size v k = .ok v') (hp : p = .debug ∨ (l.length + k) * S.size + 8 < m) : RoomFor A p e S k v' := by
  rw [C68_reserve_exact A p e S l v v' k hs hs' h hr]
  rcases hp with rfl | hp
  · exact CapVec.reserve_debug hs h hr
  · exact hp

/-- Structs of four bytes. -/
def fourBytes : StructDef := ⟨"W", 4, [.plain "w" .u32 0 32]⟩

/-- A new vector, with exactly the memory it needs. -/
def freshVec : CapVec := ⟨zeros 8, 8, 1⟩

theorem freshVec_isVector : IsVector (2 ^ 64) 4 [] freshVec := ⟨by simp, rfl, by decide, by decide⟩

example : CapVec.new (exactly (2 ^ 64)) .release 4 = .ok freshVec := by decide

/-- Without overflow checks `reserve(2^62)` on a vector of structs of four bytes returns, having reserved 8 bytes. -/
theorem C68_refuted : ¬ C68_claim := by
  intro h
  have h1 := h (2 ^ 64) (exactly (2 ^ 64)) .release .little fourBytes [] freshVec ⟨zeros 8, 16, 2⟩ (2 ^ 62) (by decide) (by decide)
    freshVec_isVector (by decide)
  have h2 := (C68_reserve_exact (exactly (2 ^ 64)) .release .little fourBytes [] freshVec ⟨zeros 8, 16, 2⟩ (2 ^ 62) (by decide)
    (by decide) freshVec_isVector (by decide)).mp h1
  exact absurd h2 (by decide)

/-- Non-vacuity: `reserve(3)` gives room for three elements: 8 + 3 * 4 + 8 bytes. -/
example : RoomFor (exactly (2 ^ 64)) .release .little fourBytes 3 ⟨zeros 8, 28, 2⟩ :=
  C68_reserve_partial (exactly (2 ^ 64)) .release .little fourBytes [] freshVec ⟨zeros 8, 28, 2⟩ 3 (by decide) (by decide)
    freshVec_isVector (by decide) (.inr (by decide))

/-- Exactly when it does nothing: if there is room for the elements and eight bytes more (the padding is counted twice). -/
theorem C68_idle_exact {m : Nat} (A : Allocator m) (p : Profile) (S : StructDef) (l : List Bytes) (v : CapVec) (k : Nat)
    (hs : 0 < S.size) (h : IsVector m S.size l v) (hk : (l.length + k) * S.size + 8 < m) :
    CapVec.reserve A p S.size v k = .ok v ↔ (l.length + k) * S.size + 16 ≤ v.cap := by
  have hd := h.len_data
  rw [CapVec.reserve_eq hs h hk, Nat.add_mul]
  constructor
  · intro hr
    obtain ⟨_, b, _, _, _⟩ := CapVec.vecReserve_spec hr h.room h.cap
    omega
  · intro hc
    unfold CapVec.vecReserve
    rw [if_pos (by omega)]

/-- False: a new vector has room for no more elements, yet `reserve(0)` allocates. -/
theorem C68_idle_refuted : ¬ C68_idle_claim := by
  intro h
  have h1 := h (2 ^ 64) (exactly (2 ^ 64)) .release .little fourBytes [] freshVec ⟨zeros 8, 16, 2⟩ 0 (by decide) (by decide)
    freshVec_isVector ((CapVec.roomFor_iff (by decide) (by decide) freshVec_isVector).mpr (by decide)) (by decide)
  exact absurd h1 (by decide)

/-- Asking again for no more than before does nothing. -/
theorem C68_again {m : Nat} (A : Allocator m) (p : Profile) (S : StructDef) (l : List Bytes) (v v' : CapVec) (j k : Nat)
    (hs : 0 < S.size) (h : IsVector m S.size l v) (hk : (l.length + k) * S.size + 8 < m) (hj : j ≤ k)
    (hr : CapVec.reserve A p S.size v k = .ok v') : CapVec.reserve A p S.size v' j = .ok v' := by
  have h' := CapVec.reserve_spec h hr
  have hle : (l.length + j) * S.size ≤ (l.length + k) * S.size := Nat.mul_le_mul_right _ (by omega)
  rw [C68_idle_exact A p S l v' j hs h' (by omega)]
  rw [CapVec.reserve_eq hs h hk] at hr
  obtain ⟨_, b, _, _, _⟩ := CapVec.vecReserve_spec hr h.room h.cap
  have := h.len_data
  rw [Nat.add_mul] at hle ⊢
  rw [Nat.add_mul] at hle
  omega

example : CapVec.reserve (exactly (2 ^ 64)) .debug 4 ⟨zeros 8, 28, 2⟩ 2 = .ok ⟨zeros 8, 28, 2⟩ :=
  C68_again (exactly (2 ^ 64)) .debug fourBytes [] freshVec ⟨zeros 8, 28, 2⟩ 2 3 (by decide) freshVec_isVector (by decide) (by decide)
    (by decide)

/-- On 64-bit hosts these vectors are those of `Model/Vector`: every operation that returns, whatever it is given, does to the bytes what
is said there, and memory stays large enough. -/
theorem C68_erase (A : Allocator usizeMod) (p : Profile) (e : Endian) (S : StructDef) (v v' : CapVec) (op : VecOp)
    (hr : v.data.length ≤ v.cap) (hc : 2 * v.cap < usizeMod) (h : CapVec.step A p e S v op = .ok v') :
    op.run p e S v.data = .ok v'.data := CapVec.step_erase op hr hc h

example : VecOp.run .release .little fourBytes (zeros 8) (.grow [.set (.plain "w" .u32 0 32) 7]) =
    .ok [7#8, 0#8, 0#8, 0#8, 0#8, 0#8, 0#8, 0#8, 0#8, 0#8, 0#8, 0#8] :=
  C68_erase (doubling usizeMod) .release .little fourBytes freshVec ⟨_, 16, 2⟩ _ (by decide) (by decide) (by decide)

/-! ## C69 -/

/-- Full claim: on every host a vector behaves like a list, from `with_len` on. -/
def C69_claim : Prop :=
  ∀ (m : Nat) (A : Allocator m) (p : Profile) (e : Endian) (S : StructDef) (n : Nat) (ops : List VecOp) (v v' : CapVec),
    0 < S.size → 2 * S.size < m → n < m → CapVec.withLen A p S.size n = .ok v → InRange ops n → CapVec.run A p e S ops v = .ok v' →
    ∃ l, runList p e S ops (List.replicate n (zeros S.size)) = .ok l ∧ CapVec.len m p S.size v' = .ok l.length ∧
      CapVec.asBytes m p v' = .ok l.flatten ∧
      ∀ i x, l[i]? = some x → ∃ rest, CapVec.at' m p S.size v' i = .ok (x ++ rest)

/-- Exactly when `with_len(n)` returns a vector of `n` elements: if the number of bytes fits into `usize`. -/
theorem C69_with_len_exact {m : Nat} (A : Allocator m) (p : Profile) (size n : Nat) (v : CapVec)
    (h : CapVec.withLen A p size n = .ok v) :
    (∃ l, l.length = n ∧ IsVector m size l v) ↔ n * size + 8 < m := by
  constructor
  · rintro ⟨l, hl, hv⟩
    have a := hv.len_data
    have b := hv.room
    have c := hv.cap
    rw [hl] at a
    omega
  · intro hn
    exact ⟨_, List.length_replicate, CapVec.withLen_spec hn h⟩

/-- What holds: everything, if the number of bytes asked for at the beginning fits into `usize` (with overflow checks it does whenever
`with_len` returns). -/
theorem C69_vector_partial {m : Nat} (A : Allocator m) (p : Profile) (e : Endian) (S : StructDef) (n : Nat) (ops : List VecOp)
    (v v' : CapVec) (hs : 0 < S.size) (hs' : 2 * S.size < m) (h : CapVec.withLen A p S.size n = .ok v) (hi : InRange ops n)
    (hr : CapVec.run A p e S ops v = .ok v') (hn : p = .debug ∨ n * S.size + 8 < m) :
    ∃ l, runList p e S ops (List.replicate n (zeros S.size)) = .ok l ∧ CapVec.len m p S.size v' = .ok l.length ∧
      CapVec.asBytes m p v' = .ok l.flatten ∧
      ∀ i x, l[i]? = some x → CapVec.at' m p S.size v' i = .ok (x ++ ((l.drop (i + 1)).flatten ++ zeros 8)) := by
  have hn : n * S.size + 8 < m := by
    rcases hn with rfl | hn
    · unfold CapVec.withLen CapVec.calcSize paddingSize at h
      by_cases h2 : n * S.size < m
      · rw [Narrow.umul_ok h2, Out.ok_bind] at h
        by_cases h3 : n * S.size + 8 < m
        · exact h3
        · rw [Narrow.uadd_panic h3] at h; cases h
      · rw [Narrow.umul_panic h2] at h; cases h
    · exact hn
  have hv := CapVec.withLen_spec hn h
  obtain ⟨l, h1, h2⟩ := CapVec.run_spec hs hs' ops hv (by simpa using hi) hr
  exact ⟨l, h1, h2.len hs p, h2.asBytes p, fun i x hx => by rw [h2.at' p hx, List.append_assoc]⟩

/-- Without overflow checks `with_len(2^30)` of structs of four bytes on a 32-bit host is an empty vector. -/
theorem C69_refuted : ¬ C69_claim := by
  intro h
  obtain ⟨l, h1, h2, _⟩ := h (2 ^ 32) (exactly (2 ^ 32)) .release .little fourBytes (2 ^ 30) [] freshVec freshVec (by decide)
    (by decide) (by decide) (by decide) trivial rfl
  have e1 : CapVec.len (2 ^ 32) .release fourBytes.size freshVec = .ok 0 := by decide
  rw [e1] at h2
  injection h1 with h1
  injection h2 with h2
  rw [← h1, List.length_replicate] at h2
  exact absurd h2 (by decide)

/-- Non-vacuity: two elements, the second one set, on a 32-bit host. -/
example : ∃ l, runList .release .little fourBytes [.reserve 1, .atMut 1 [.set (.plain "w" .u32 0 32) 7]] [zeros 4, zeros 4] = .ok l ∧
    l = [zeros 4, [7#8, 0#8, 0#8, 0#8]] := by
  obtain ⟨l, h1, _, h3, _⟩ := C69_vector_partial (doubling (2 ^ 32)) .release .little fourBytes 2
    [.reserve 1, .atMut 1 [.set (.plain "w" .u32 0 32) 7]] ⟨zeros 16, 16, 1⟩
    ⟨zeros 4 ++ [7#8, 0#8, 0#8, 0#8] ++ zeros 8, 32, 2⟩ (by decide) (by decide) (by decide) (by decide) (by decide) (.inr (by decide))
  refine ⟨l, h1, ?_⟩
  have : runList .release .little fourBytes [.reserve 1, .atMut 1 [.set (.plain "w" .u32 0 32) 7]] [zeros 4, zeros 4] =
    .ok [zeros 4, [7#8, 0#8, 0#8, 0#8]] := by decide
  rw [show [zeros 4, zeros 4] = List.replicate 2 (zeros fourBytes.size) from rfl, h1] at this
  injection this

/-- The bytes do not depend on the host, on how memory is allocated, or on what was reserved in between: two runs of the same history that
return have the same result. -/
theorem C69_same {m m' : Nat} (A : Allocator m) (A' : Allocator m') (p : Profile) (e : Endian) (S : StructDef) (n : Nat)
    (ops ops' : List VecOp) (v v' w w' : CapVec) (hs : 0 < S.size) (hm : 2 * S.size < m) (hm' : 2 * S.size < m')
    (hn : n * S.size + 8 < m) (hn' : n * S.size + 8 < m')
    (hops : ops.filter (fun o => match o with | .reserve _ => false | _ => true) =
      ops'.filter (fun o => match o with | .reserve _ => false | _ => true))
    (hi : InRange ops n) (hi' : InRange ops' n)
    (h1 : CapVec.withLen A p S.size n = .ok v) (h2 : CapVec.run A p e S ops v = .ok w)
    (h1' : CapVec.withLen A' p S.size n = .ok v') (h2' : CapVec.run A' p e S ops' v' = .ok w') : w.data = w'.data := by
  have key : ∀ (ops : List VecOp) (l : List Bytes), runList p e S ops l =
      runList p e S (ops.filter (fun o => match o with | .reserve _ => false | _ => true)) l := by
    intro ops
    induction ops with
    | nil => intro l; rfl
    | cons op ops ih =>
      intro l
      cases op with
      | reserve k =>
        rw [List.filter_cons_of_neg (by simp)]
        simp only [runList, listOp, Out.ok_bind]
        exact ih l
      | grow o =>
        rw [List.filter_cons_of_pos rfl]
        simp only [runList]
        congr 1
        funext l1
        exact ih l1
      | atMut i o =>
        rw [List.filter_cons_of_pos rfl]
        simp only [runList]
        congr 1
        funext l1
        exact ih l1
  obtain ⟨l, a, b⟩ := CapVec.run_spec hs hm ops (CapVec.withLen_spec hn h1) (by simpa using hi) h2
  obtain ⟨l', a', b'⟩ := CapVec.run_spec hs hm' ops' (CapVec.withLen_spec hn' h1') (by simpa using hi') h2'
  rw [key, hops, ← key, a'] at a
  injection a with a
  rw [b.eq, b'.eq, a]

/-- Non-vacuity: on a 32-bit and a 64-bit host, with different allocators, with and without reservation. -/
example : (⟨zeros 12, 20, 2⟩ : CapVec).data = (⟨zeros 12, 16, 2⟩ : CapVec).data :=
  C69_same (exactly (2 ^ 32)) (doubling (2 ^ 64)) .release .little fourBytes 0 [.reserve 1, .grow []] [.grow []] freshVec freshVec
    _ _ (by decide) (by decide) (by decide) (by decide) (by decide) rfl (by decide) (by decide) (by decide) (by decide) (by decide)
    (by decide)

/-- Such a history does return, if all elements and reservations stay below `isize::MAX` and the allocator gives whatever fits. -/
theorem C69_succeeds {m : Nat} (A : Allocator m) (hA : Obliging A) (p : Profile) (e : Endian) (S : StructDef) (n : Nat)
    (ops : List VecOp) (l : List Bytes) (hs : 0 < S.size) (hs' : 2 * S.size < m) (hf : HostRoom m S.size ops n)
    (hl : runList p e S ops (List.replicate n (zeros S.size)) = .ok l) :
    ∃ v v', CapVec.withLen A p S.size n = .ok v ∧ CapVec.run A p e S ops v = .ok v' := by
  have hb := hf.bound
  obtain ⟨v, hv⟩ := CapVec.withLen_ok (A := A) (p := p) (size := S.size) hA hb
  obtain ⟨v', hv'⟩ := CapVec.run_ok hs hs' hA ops (CapVec.withLen_spec (by omega) hv) (by simpa using hf) hl
  exact ⟨v, v', hv, hv'⟩

theorem exactly_obliging (m : Nat) : Obliging (exactly m) :=
  ⟨fun n h => ⟨n, by simp [exactly, h]⟩, fun _ n h => ⟨n, by simp [exactly, h]⟩⟩

example : ∃ v v', CapVec.withLen (exactly (2 ^ 16)) .debug 4 2 = .ok v ∧
    CapVec.run (exactly (2 ^ 16)) .debug .big fourBytes [.grow [], .reserve 100] v = .ok v' :=
  C69_succeeds (exactly (2 ^ 16)) (exactly_obliging _) .debug .big fourBytes 2 [.grow [], .reserve 100] [zeros 4, zeros 4, zeros 4]
    (by decide) (by decide) (by decide) (by decide)

/-- An allocator that doubles gives up earlier: a full vector that takes a quarter of the address space cannot grow, however small its
elements are. -/
theorem C69_half {m : Nat} (p : Profile) (S : StructDef) (l : List Bytes) (v : CapVec) (hs : 0 < S.size) (hs' : 2 * S.size < m)
    (h : IsVector m S.size l v) (hfull : v.cap < v.data.length + S.size) (hq : m ≤ 4 * v.cap) :
    CapVec.grow (doubling m) p S.size v = .panic := by
  rw [CapVec.grow_eq hs hs' h]
  unfold CapVec.vecReserve
  have := h.room
  rw [if_neg (by omega)]
  have e1 : (doubling m).next v.cap (v.data.length + S.size) = none := by
    have : ¬ 2 * max (2 * v.cap) (v.data.length + S.size) < m := by
      have := Nat.le_max_left (2 * v.cap) (v.data.length + S.size)
      omega
    simp [doubling, this]
  rw [e1]
  rfl

example : CapVec.grow (doubling 64) .release 4 ⟨zeros 16, 16, 1⟩ = .panic :=
  C69_half .release fourBytes [zeros 4, zeros 4] _ (by decide) (by decide) ⟨by decide, by decide, by decide, by decide⟩ (by decide)
    (by decide)

end Flatdata
