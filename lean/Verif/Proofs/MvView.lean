import Verif.Proofs.MGrows
import Verif.Proofs.MultiView
/-!
# What a stored multivector shows
-/
namespace Flatdata
open Spec
variable {p : Profile} {e : Endian}

theorem le_of_mem_starts : ∀ {a n : Nat} {its : List (List Add)}, n ∈ starts a its → a ≤ n ∧ n ≤ a + dataSize its
  | _, _, [], h => by cases h
  | a, n, as :: its, h => by
    have hd : dataSize (as :: its) = itemSize as + dataSize its := by simp [dataSize]
    rcases List.mem_cons.mp h with h | h
    · subst h; exact ⟨Nat.le_refl _, by omega⟩
    · have := le_of_mem_starts h
      omega

theorem mem_indexNumbers {n : Nat} {its : List (List Add)} (h : n ∈ indexNumbers its) : n ≤ dataSize its := by
  rcases List.mem_append.mp h with h | h
  · have := le_of_mem_starts h; omega
  · simp at h; omega

theorem starts_sorted : ∀ (a : Nat) (its : List (List Add)), (starts a its).Pairwise (· ≤ ·)
  | _, [] => .nil
  | a, as :: its => by
    refine List.pairwise_cons.mpr ⟨fun n hn => ?_, starts_sorted _ its⟩
    have := le_of_mem_starts hn
    omega

theorem indexNumbers_sorted (its : List (List Add)) : (indexNumbers its).Pairwise (· ≤ ·) := by
  refine List.pairwise_append.mpr ⟨starts_sorted 0 its, by simp, fun a ha b hb => ?_⟩
  have := le_of_mem_starts ha
  simp at hb; omega

theorem length_indexNumbers (its : List (List Add)) : (indexNumbers its).length = its.length + 1 := by
  simp [indexNumbers, length_starts]

theorem getElem?_starts : ∀ (a : Nat) (its : List (List Add)) (i : Nat), i < its.length →
    (starts a its)[i]? = some (a + dataSize (its.take i))
  | a, [], i, h => by simp at h
  | a, as :: its, 0, _ => by simp [starts, dataSize]
  | a, as :: its, i + 1, h => by
    rw [starts, List.getElem?_cons_succ, getElem?_starts _ its i (by simpa using h)]
    simp [dataSize, Nat.add_assoc]

theorem getElem?_indexNumbers (its : List (List Add)) (i : Nat) (h : i ≤ its.length) :
    (indexNumbers its)[i]? = some (dataSize (its.take i)) := by
  unfold indexNumbers
  by_cases hi : i < its.length
  · rw [List.getElem?_append_left (by rw [length_starts]; exact hi), getElem?_starts _ _ _ hi, Nat.zero_add]
  · obtain rfl : i = its.length := by omega
    rw [List.getElem?_append_right (by rw [length_starts]; exact Nat.le_refl _), length_starts]
    simp

/-- Cutting the data at the starts of the items yields the items. -/
theorem pieces_starts : ∀ {its : List (List Add)} {xss : List (List (BitVec 8 × Bytes))} (pre : Bytes), AllContents p e its xss →
    pieces (starts pre.length its ++ [pre.length + dataSize its]) (pre ++ encodeItems xss) = xss.map encodeItem
  | [], [], _, _ => rfl
  | as :: its, xs :: xss, pre, h => by
    have h1 := h.1.length
    have e1 : encodeItems (xs :: xss) = encodeItem xs ++ encodeItems xss := by
      rw [show xs :: xss = [xs] ++ xss from rfl, encodeItems_append, encodeItems_singleton]
    have e2 : dataSize (as :: its) = itemSize as + dataSize its := by simp [dataSize]
    have ih := pieces_starts (pre ++ encodeItem xs) h.2
    have hl : (pre ++ encodeItem xs).length = pre.length + itemSize as := by rw [List.length_append, h1]
    rw [hl] at ih
    have ex : ∃ l, starts (pre.length + itemSize as) its ++ [pre.length + dataSize (as :: its)] = (pre.length + itemSize as) :: l := by
      cases its with
      | nil => exact ⟨[], by simp [starts, dataSize]⟩
      | cons b its => exact ⟨_, rfl⟩
    obtain ⟨l, hl2⟩ := ex
    rw [starts, List.cons_append, hl2, e1, pieces, List.map_cons, ← List.append_assoc]
    congr 1
    · rw [List.take_left' hl, List.drop_left]
    · rw [← hl2, e2, ← Nat.add_assoc]; exact ih
  | [], _ :: _, _, h => h.elim
  | _ :: _, [], _, h => h.elim

theorem Spec.Contents.itemOK {V : Variadic} : ∀ {as : List Add} {xs : List (BitVec 8 × Bytes)}, Contents p e as xs →
    (∀ a ∈ as, (a.type, a.struct) ∈ V.types) → ItemOK V xs
  | [], [], _, _ => by intro x hx; cases hx
  | a :: as, y :: xs, h, hv => by
    intro x hx
    rcases List.mem_cons.mp hx with hx | hx
    · subst hx
      refine ⟨(a.type, a.struct), hv a (by simp), h.1.symm, ?_⟩
      rw [runHandle_length _ _ _ h.2.1]; simp [zeros]
    · exact Contents.itemOK h.2.2 (fun a ha => hv a (by simp [ha])) x hx
  | [], _ :: _, h, _ => h.elim
  | _ :: _, [], h, _ => h.elim

theorem Spec.AllContents.itemOK {V : Variadic} : ∀ {its : List (List Add)} {xss : List (List (BitVec 8 × Bytes))}, AllContents p e its xss →
    (∀ as ∈ its, ∀ a ∈ as, (a.type, a.struct) ∈ V.types) → ∀ xs ∈ xss, ItemOK V xs
  | [], [], _, _ => by intro x hx; cases hx
  | as :: its, ys :: xss, h, hv => by
    intro xs hx
    rcases List.mem_cons.mp hx with hx | hx
    · subst hx; exact h.1.itemOK (hv as (by simp))
    · exact AllContents.itemOK h.2 (fun a ha => hv a (by simp [ha])) xs hx
  | [], _ :: _, h, _ => h.elim
  | _ :: _, [], h, _ => h.elim

/-- The index and the data written by a multivector, seen as a view. -/
theorem written_view {V : Variadic} (ok : VariadicOK V) {its : List (List Add)} {xss : List (List (BitVec 8 × Bytes))} {xs : List Bytes}
    (hx : Elements p e V.indexStruct ((indexNumbers its).map (indexOps V)) xs) (hc : AllContents p e its xss)
    (hv : ∀ as ∈ its, ∀ a ∈ as, (a.type, a.struct) ∈ V.types) (hbits : dataSize its < 2 ^ V.indexBits)
    (hb : (its.length + 1) * V.indexSize < 2 ^ 63) :
    offsets V xs.flatten = indexNumbers its ∧ items V ⟨xs.flatten, encodeItems xss⟩ = xss.map encodeItem ∧
      Shows V ⟨xs.flatten, encodeItems xss⟩ xss := by
  have hlen : xs.length = its.length + 1 := by rw [← hx.length_eq, List.length_map, length_indexNumbers]
  have hall : AllSize V.indexSize xs := hx.allSize
  have ho : offsets V xs.flatten = indexNumbers its := by
    unfold offsets
    rw [elems_flatten ok.index.size_pos hall]
    refine entries_values ok.index hx fun n hn => ?_
    have := mem_indexNumbers hn
    omega
  have hi : items V ⟨xs.flatten, encodeItems xss⟩ = xss.map encodeItem := by
    unfold items
    rw [ho]
    have := pieces_starts [] hc
    simpa [indexNumbers] using this
  have mo : MultiOK V ⟨xs.flatten, encodeItems xss⟩ := by
    refine ⟨ok.index, ?_, ?_, ?_, ?_⟩
    · change offsets V xs.flatten ≠ []
      rw [ho]; simp [indexNumbers]
    · change (offsets V xs.flatten).Pairwise _
      rw [ho]; exact indexNumbers_sorted its
    · change ∀ o ∈ offsets V xs.flatten, o ≤ (encodeItems xss).length
      rw [ho, hc.length.1]; exact fun n hn => mem_indexNumbers hn
    · change xs.flatten.length < _
      rw [hall.length_flatten, hlen]; exact hb
  refine ⟨ho, hi, mo, fun p' e' => ⟨?_, fun i hlt => ?_⟩⟩
  · rw [multi_len mo, hi, List.length_map]
  · have hlt' : i < (items V ⟨xs.flatten, encodeItems xss⟩).length := by rw [hi, List.length_map]; exact hlt
    obtain ⟨l, h1, h2, _⟩ := itemCollect_encode ok.distinct xss[i] (hc.itemOK hv _ (List.getElem_mem hlt))
    refine ⟨encodeItem xss[i], l, ?_, h1, h2⟩
    rw [multi_at mo hlt']
    congr 1
    simp only [hi, List.getElem_map]

/-- Closing a multivector after any history. -/
theorem mclose_inv [DiffLib] {k : Kind} {V : Variadic} {o : k.backend.Obj} {name schema : String}
    {w0 w w1 : k.backend.W} {v v1 : MultiVec k.backend} {its : List (List Add)} (ok : IndexOK V) (hu : k.MUnused w0 o name)
    (hc : createMultiVector p e o name schema w0 = (.ok v, w)) (g : MGrows k p e V o name w v its w1 v1)
    (hbI : (its.length + 1) * V.indexSize + 8 < 2 ^ 63) (hb : dataSize its + 8 < 2 ^ 63) :
    ∃ xs xss cleanI cleanD r w2, Elements p e V.indexStruct ((indexNumbers its).map (indexOps V)) xs ∧ AllContents p e its xss ∧
      (∀ as ∈ its, ∀ a ∈ as, (a.type, a.struct) ∈ V.types) ∧ v1.close p e V w1 = (r, w2) ∧
      MvClosed p e k.laws o name schema xs.flatten (encodeItems xss) cleanI cleanD w1 w2 r ∧
      MvStored k.laws o name schema xs.flatten (encodeItems xss) w1 w2 ∧ (k.noFault w0 → k.noFault w1 ∧ cleanI ∧ cleanD) ∧
      v1.index.handle.obj = o ∧ v1.handle.obj = o := by
  obtain ⟨i, u, n⟩ := mcreated_inv V hu hc
  obtain ⟨preI, bufI, cI, pre, body, c, xss, s⟩ := mgrows_inv ok i u g hbI hb
  obtain ⟨l1, l2⟩ := s.length
  obtain ⟨x, r, w2, hx, h, cl, st⟩ := s.inv.close (k.apart o name) p e ok s.unseen.data s.unseen.index (by omega) (by rw [l2]; exact hbI)
  rw [s.data] at cl st
  refine ⟨preI ++ bufI ++ [x], xss, _, _, r, w2, ?_, s.contents, s.variants, h, cl, st, fun hn => s.fine (n hn),
    s.inv.index.writing.obj, s.inv.data.obj⟩
  rw [indexNumbers, List.map_append]
  rw [l1] at hx
  exact s.index.snoc (ops := indexOps V (dataSize its)) hx

end Flatdata
