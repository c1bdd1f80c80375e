import Verif.Props.MultiVectors
/-!
# C26, C27: exactly which multivectors can be read back

`C26_roundtrip_partial` and `C27_index_partial` assume that the index type can express the size of the data. Here it is shown that
this is necessary as well: otherwise some item cannot be read back and the index does not end with the size of the data.
-/
namespace Flatdata
open Spec StorageExample VecExample MvExample

/-- If all items can be read from what a multivector stores, the entries of the index are the starts of the items. -/
theorem offsets_of_reads {p p' : Profile} {e e' : Endian} {V : Variadic} (ok : IndexOK V) {its : List (List Add)}
    {xss : List (List (BitVec 8 × Bytes))} {xs : List Bytes}
    (hx : Elements p e V.indexStruct ((indexNumbers its).map (indexOps V)) xs) (hc : AllContents p e its xss)
    (hb : (its.length + 1) * V.indexSize < 2 ^ 63) (db : Bytes)
    (hr : ∀ i (h : i < xss.length), ∃ b l, MultiView.at' p' e' V ⟨xs.flatten, db⟩ i = .ok b ∧
      MultiView.itemCollect V b = .ok l ∧ l.map Elem.content = xss[i]) :
    ∀ i, i ≤ its.length → (offsets V xs.flatten)[i]? = some (dataSize (its.take i)) := by
  have hlen : xs.length = its.length + 1 := by rw [← hx.length_eq, List.length_map, length_indexNumbers]
  have hall : AllSize V.indexSize xs := hx.allSize
  have hfl : xs.flatten.length = (its.length + 1) * V.indexSize := by rw [hall.length_flatten, hlen]
  have hof : offsets V xs.flatten = xs.map fun x => fieldRaw x 0 V.indexBits := by
    unfold offsets
    rw [elems_flatten ok.size_pos hall]
  have holen : (offsets V xs.flatten).length = its.length + 1 := by rw [hof, List.length_map, hlen]
  have hxl : xss.length = its.length := hc.length.2
  intro i
  induction i with
  | zero =>
    intro _
    have h0 : ∃ ns, indexNumbers its = 0 :: ns := by
      cases its with
      | nil => exact ⟨[], by simp [indexNumbers, starts, dataSize]⟩
      | cons as its => exact ⟨_, rfl⟩
    obtain ⟨ns, h0⟩ := h0
    rw [h0] at hx
    cases xs with
    | nil => simp at hlen
    | cons x xs =>
      have := indexEntry_value ok hx.1 (Nat.two_pow_pos _)
      rw [hof]
      simp [this, dataSize]
  | succ i ih =>
    intro hi
    have ih := ih (by omega)
    obtain ⟨b, l, h1, h2, h3⟩ := hr i (by omega)
    obtain ⟨h4, _⟩ := itemCollect_ok _ b (Nat.le_refl _) l h2
    have hd : xs.flatten.length < usizeMod := by unfold usizeMod; omega
    have hcnt : its.length + 1 ≤ (its.length + 1) * V.indexSize := Nat.le_mul_of_pos_right _ ok.size_pos
    rw [at_eq, entry ok hd (show i < _ by omega), Out.ok_bind, uadd_ok (by omega), Out.ok_bind,
      entry ok hd (show i + 1 < _ by omega), Out.ok_bind] at h1
    unfold sliceRange at h1
    split at h1
    · next hle =>
      cases h1
      rw [List.getElem?_eq_getElem (by omega)] at ih ⊢
      have ih := Option.some.inj ih
      have hlb := congrArg List.length h4
      rw [h3] at hlb
      simp only [List.length_drop, List.length_take] at hlb
      have hit : (encodeItem xss[i]).length = itemSize its[i] := by
        have : ∀ (its : List (List Add)) (xss : List (List (BitVec 8 × Bytes))), AllContents p e its xss →
            ∀ i (h : i < xss.length) (h' : i < its.length), (encodeItem xss[i]).length = itemSize its[i] := by
          intro its
          induction its with
          | nil => intro xss _ i _ h'; simp at h'
          | cons as its ih =>
            intro xss hc i h h'
            cases xss with
            | nil => simp at h
            | cons ys xss =>
              cases i with
              | zero => exact hc.1.length
              | succ i => exact ih xss hc.2 i (by simpa using h) (by simpa using h')
        exact this its xss hc i (by omega) (by omega)
      rw [List.take_succ_eq_append_getElem (by omega)]
      congr 1
      have : dataSize (List.take i its ++ [its[i]]) = dataSize (List.take i its) + itemSize its[i] := by
        rw [dataSize_append, dataSize_singleton]
      rw [this]
      rw [hit] at hlb
      dsimp only at hle hlb ih ⊢
      omega
    · cases h1

/-- C26, exactly: after a successful `close`, all items can be read back (in any build) if and only if the index type can express
the size of the data. -/
theorem C26_roundtrip_exact [DiffLib] (k : Kind) (p p' : Profile) (e e' : Endian) (V : Variadic) (ok : VariadicOK V)
    (w0 w w1 w2 : k.backend.W) (o : k.backend.Obj) (name schema : String) (v v1 : MultiVec k.backend) (its : List (List Add))
    (si sd : Slice k.backend.Base) (hu : k.MUnused w0 o name) (hc : createMultiVector p e o name schema w0 = (.ok v, w))
    (g : MGrows k p e V o name w v its w1 v1) (hbI : (its.length + 1) * V.indexSize + 8 < 2 ^ 63) (hb : dataSize its + 8 < 2 ^ 63)
    (hcl : v1.close p e V w1 = (.ok (si, sd), w2)) :
    ∃ xss ib db, AllContents p e its xss ∧ k.backend.deref w2 si = .ok ib ∧ k.backend.deref w2 sd = .ok db ∧
      ((∀ i (h : i < xss.length), ∃ b l, MultiView.at' p' e' V ⟨ib, db⟩ i = .ok b ∧ MultiView.itemCollect V b = .ok l ∧
        l.map Elem.content = xss[i]) ↔ dataSize its < 2 ^ V.indexBits) := by
  obtain ⟨xs, xss, cleanI, cleanD, r, w2', hx, hxss, hv, hcl', cl, st, fine, _⟩ := mclose_inv ok.index hu hc g hbI hb
  rw [hcl] at hcl'; cases hcl'
  cases cl with
  | ok si sd hI hD hsI hsD =>
    refine ⟨xss, _, _, hxss, hsI, hsD, fun h => ?_, fun h => ?_⟩
    · have := offsets_of_reads ok.index hx hxss (by omega) _ h its.length (Nat.le_refl _)
      rw [List.take_length] at this
      obtain ⟨x, _, hx⟩ := List.mem_map.mp (List.mem_of_getElem? this)
      rw [← hx]
      exact fieldRaw_lt _ _ _
    · exact ((written_view ok hx hxss hv h (by omega)).2.2.2 p' e').2

/-- C27, exactly: the stored index ends with the size of the data if and only if the index type can express it. -/
theorem C27_index_exact [DiffLib] (k : Kind) (p : Profile) (e : Endian) (V : Variadic) (ok : VariadicOK V)
    (w0 w w1 w2 : k.backend.W) (o : k.backend.Obj) (name schema : String) (v v1 : MultiVec k.backend) (its : List (List Add))
    (si sd : Slice k.backend.Base) (hu : k.MUnused w0 o name) (hc : createMultiVector p e o name schema w0 = (.ok v, w))
    (g : MGrows k p e V o name w v its w1 v1) (hbI : (its.length + 1) * V.indexSize + 8 < 2 ^ 63) (hb : dataSize its + 8 < 2 ^ 63)
    (hcl : v1.close p e V w1 = (.ok (si, sd), w2)) :
    ∃ ib db, k.stored w2 o (name ++ "_index") = some (image ib) ∧ k.stored w2 o name = some (image db) ∧
      db.length = dataSize its ∧ (offsets V ib).length = its.length + 1 ∧
      ((offsets V ib).getLast? = some db.length ↔ dataSize its < 2 ^ V.indexBits) := by
  obtain ⟨xs, xss, cleanI, cleanD, r, w2', hx, hxss, hv, hcl', cl, st, fine, oi, od⟩ := mclose_inv ok.index hu hc g hbI hb
  rw [hcl] at hcl'; cases hcl'
  cases cl with
  | ok si sd hI hD hsI hsD hrI hrD =>
    have hall : AllSize V.indexSize xs := hx.allSize
    have hlen : xs.length = its.length + 1 := by rw [← hx.length_eq, List.length_map, length_indexNumbers]
    have hof : offsets V xs.flatten = xs.map fun x => fieldRaw x 0 V.indexBits := by
      unfold offsets
      rw [elems_flatten ok.index.size_pos hall]
    refine ⟨_, _, (k.stored_eq ..).trans hI, (k.stored_eq ..).trans hD, hxss.length.1, ?_, fun h => ?_, fun h => ?_⟩
    · rw [hof, List.length_map, hlen]
    · rw [hxss.length.1] at h
      obtain ⟨x, _, hx⟩ := List.mem_map.mp (List.mem_of_getLast? h)
      rw [← hx]
      exact fieldRaw_lt _ _ _
    · rw [(written_view ok hx hxss hv h (by omega)).1, hxss.length.1]; simp [indexNumbers]

/-- Non-vacuity: the two-bit index of `C26_refuted` with one item of four bytes; not all items can be read. -/
example : ∃ v w v1 w1 w2 si sd, createMultiVector (B := mem) .debug .little obj "x" "s" mem0 = (.ok v, w) ∧
    MGrows .memory .debug .little Tiny obj "x" w v tinyIts w1 v1 ∧
    @MultiVec.close mem .debug .little naiveDiff Tiny v1 w1 = (.ok (si, sd), w2) ∧
    ∃ xss ib db, AllContents .debug .little tinyIts xss ∧ mem.deref w2 si = .ok ib ∧ mem.deref w2 sd = .ok db ∧
      ¬ ∀ i (h : i < xss.length), ∃ b l, MultiView.at' .release .big Tiny ⟨ib, db⟩ i = .ok b ∧ MultiView.itemCollect Tiny b = .ok l ∧
        l.map Elem.content = xss[i] := by
  have hb : (build (B := mem) Tiny obj tinyIts mem0).1.isOk = true := by decide
  obtain ⟨v1, w1, hb⟩ := isOk_run hb
  obtain ⟨v, w, hc, g⟩ := build_mgrows (k := .memory) tiny_variants hb
  have hd : (result Tiny tinyIts).isSome = true := by decide
  cases hcl : @MultiVec.close mem .debug .little naiveDiff Tiny v1 w1 with
  | mk r w2 =>
    unfold result at hd
    rw [Act.bind_ok (Act.mapErr_ok hb), hcl] at hd
    cases r with
    | ok r =>
      obtain ⟨si, sd⟩ := r
      obtain ⟨xss, ib, db, h1, h2, h3, h4⟩ := @C26_roundtrip_exact naiveDiff .memory .debug .release .little .big Tiny tiny_ok mem0 w w1 w2
        obj "x" "s" v v1 tinyIts si sd (munused_mem0 _) hc g (by decide) (by decide) hcl
      exact ⟨v, w, v1, w1, w2, si, sd, hc, g, hcl, xss, ib, db, h1, h2, h3, fun h => absurd (h4.mp h) (by decide)⟩
    | err x => cases hd
    | panic => cases hd
    | ub => cases hd

end Flatdata
