import Verif.Props.StorageExact
import Verif.Proofs.Succeeds
/-!
# Property C37 exactly: for which names resources are independent
-/
namespace Flatdata
open Spec StorageExample

namespace IndepExample

/-- A schema whose bytes are those of an empty resource. -/
def nuls : String := String.ofList (List.replicate 16 (Char.ofNat 0))

theorem nuls_bytes : strBytes nuls = image [] := by decide +kernel

/-- Files in directory `d`, and the directory. -/
def inD (f : Key) : Prop := ∃ x, f = [['d'], x]
def isD (d : Key) : Prop := d = [['d']]

/-- A world with a single stored file, `a`, of which nothing has been read, and in which everything else can be written. -/
theorem one_file (k : Kind) (a : String) (ha : PlainName a) (b : Bytes) : ∃ (w : k.backend.W) (o : k.backend.Obj),
    k.Reachable w ∧ k.alive w o ∧ k.noFault w ∧ (∀ n, k.unread w o n) ∧ k.stored w o a = some b ∧
    (∀ n, k.place o n ≠ k.place o a → k.stored w o n = none) ∧
    ∀ p e m schema data, PlainName m → data.length < 2 ^ 63 → ∃ w', Storage.write k.backend p e o m schema data w = (.ok (), w') := by
  cases k
  · let w1 : MemW := { mem0 with streams := upd mem0.streams (MemSt.loc obj a) (some ([], 0)) }
    let w2 : MemW := { w1 with streams := upd w1.streams (MemSt.loc obj a) (some (putAt [] 0 b, 0 + b.length)) }
    have h1 : MemSt.createOutputStream obj a mem0 = (.ok (MemSt.loc obj a), w1) := rfl
    have h2 : MemSt.writeAll (MemSt.loc obj a) b w1 = (.ok (), w2) := by
      unfold MemSt.writeAll
      have : w1.streams (MemSt.loc obj a) = some ([], 0) := upd_same _ _ _
      rw [this]
    have st : Kind.Steps .memory mem0 w2 :=
      .step (.step (.refl _) (.create (k := .memory) (o := obj) (n := a) (w := mem0) (w' := w1) Nat.zero_lt_one h1))
        (.write (k := .memory) (w := w1) (w' := w2) h2)
    refine ⟨w2, obj, mem0_reachable.steps st, st.alive Nat.zero_lt_one, trivial, fun _ => rfl, ?_, ?_, ?_⟩
    · change (w2.streams (MemSt.loc obj a)).map Prod.fst = some b
      have : w2.streams (MemSt.loc obj a) = some (putAt [] 0 b, 0 + b.length) := upd_same _ _ _
      rw [this]
      simp [putAt]
    · intro n hn
      change (w2.streams (MemSt.loc obj n)).map Prod.fst = none
      have hne : MemSt.loc obj n ≠ MemSt.loc obj a := hn
      have h3 : w2.streams (MemSt.loc obj n) = none := by
        change upd (upd mem0.streams _ _) _ _ _ = none
        rw [upd_other _ _ hne, upd_other _ _ hne]; rfl
      rw [h3]; rfl
    · intro p e m schema data hm hd
      obtain ⟨_, w', h, _⟩ := Kind.does_storageWrite (k := .memory) (p := p) (e := e) (o := obj) (name := m) (schema := schema) (d := data)
        (F := fun _ => False) (G := fun _ => True) (fun _ _ h => h.elim) trivial (by omega) trivial trivial w2
        ⟨trivial, st.alive Nat.zero_lt_one⟩
      exact ⟨w', h⟩
  · have hka : ∀ n, PlainName n → key (join objD.path n) = [['d'], n.toList] := fun n hn => key_join_plain _ hn
    refine ⟨disk0 [(key (join objD.path a), b)], objD, disk0_reachable _ _, Nat.zero_lt_one, disk0_noFault _, fun _ => rfl, ?_, ?_, ?_⟩
    · change (List.find? _ [(key (join objD.path a), b)]).map _ = some b
      simp
    · intro n hn
      change (List.find? _ [(key (join objD.path a), b)]).map _ = none
      have hne : key (join objD.path n) ≠ key (join objD.path a) := hn
      simp [Ne.symm hne]
    · intro p e m schema data hm hd
      have sx : Suffix ".schema".toList := by constructor <;> decide
      have room : DiskRoom inD isD (disk0 [(key (join objD.path a), b)]) := by
        refine ⟨?_, ?_, disk0_noFault _⟩
        · rintro f ⟨x, rfl⟩
          change decide ([['d'], x] = [['d']]) = false
          simp
        · intro d hd i
          rw [show d = [['d']] from hd]
          change (List.find? _ [(key (join objD.path a), b)]).map _ = none
          rw [hka a ha]
          cases i <;> simp
      obtain ⟨_, w', h, _⟩ := Kind.does_storageWrite (k := .disk) (p := p) (e := e) (o := objD) (name := m) (schema := schema) (d := data)
        (F := inD) (G := isD) (by
          rintro f d ⟨x, rfl⟩ hd hp
          rw [show d = [['d']] from hd] at hp
          have := hp.length_le
          simp at this) rfl (by omega)
        (Kind.spot_place (k := .disk) hm ⟨_, rfl⟩) (Kind.spot_place (k := .disk) (hm.append sx) ⟨_, rfl⟩)
        (disk0 [(key (join objD.path a), b)]) ⟨room, Nat.zero_lt_one⟩
      exact ⟨w', h⟩

end IndepExample
open IndepExample

/-- For which plain names writing one resource leaves reading the other one alone: exactly if neither is the schema of the
other one. In both storages, whatever is stored, and whatever is written. -/
theorem C37_exact [DiffLib] (k : Kind) (p : Profile) (e : Endian) (n m : String) (hn : PlainName n) (hm : PlainName m) (h : n ≠ m) :
    (∀ (w : k.backend.W) (o : k.backend.Obj) (schema schema' : String) (data : Bytes), k.Reachable w → k.alive w o → k.noFault w →
      SameRead k.backend n (Storage.read k.backend p e o n schema w)
        (Storage.read k.backend p e o n schema (Storage.write k.backend p e o m schema' data w).2)) ↔
    n ≠ m ++ ".schema" ∧ m ≠ n ++ ".schema" := by
  have sx : Suffix ".schema".toList := by constructor <;> decide
  have lng : ∀ x : String, (x ++ ".schema").toList.length = x.toList.length + 7 := by
    intro x; rw [String.toList_append, List.length_append]; rfl
  have ne_of_length : ∀ x y : String, x.toList.length ≠ y.toList.length → x ≠ y := fun x y hl he => hl (by rw [he])
  constructor
  · intro all
    -- what is common to both cases
    have key : ∀ (a : String) (b : Bytes) (schema schema' : String) (data x : Bytes), PlainName a → data.length < 2 ^ 63 →
        a ≠ m → a ≠ m ++ ".schema" → (a ≠ n ∨ a ≠ n ++ ".schema") →
        (∀ dir : String → Option Bytes, dir a = some b → dir m = some (image data) → dir (m ++ ".schema") = some (strBytes schema') →
          Valid k dir n schema x) → False := by
      intro a b schema schema' data x ha hd h1 h2 h3 hv
      obtain ⟨w, o, hr, ho, hf, hu, hs, hno, hw⟩ := one_file k a ha b
      obtain ⟨w1, hw1⟩ := hw p e m schema' data hm hd
      have p1 := C37_places k o m a hm ha (Ne.symm h1)
      have p2 := C37_places k o (m ++ ".schema") a (hm.append sx) ha (Ne.symm h2)
      have s1 := hno _ p1
      have s2 := hno _ p2
      obtain ⟨e1, e2, on⟩ := write_stored hd (by rw [s1]; exact k.laws.fresh_none) (by rw [s2]; exact k.laws.fresh_none) hw1
      have e3 : k.stored w1 o a = some b := by
        rw [← hs, Kind.stored_eq, Kind.stored_eq]
        refine (on.keeps _ ?_).medium
        rintro (hl | hl)
        · exact k.loc_plain_ne o ha hm h1 hl
        · exact k.loc_plain_ne o ha (hm.append sx) h2 hl
      have st : k.Steps w w1 := Kind.steps_of (fun _ => Kind.pres_storageWrite) ho hw1
      have cur0 : ∀ n, k.current w o n := by
        intro n
        rw [Kind.current_iff]
        intro s hs
        have := hu n
        rw [Kind.unread_iff] at this
        rw [this] at hs; cases hs
      have cur1 : ∀ n, k.current w1 o n := by
        intro n
        rw [Kind.current_iff]
        intro s hs
        have := hu n
        rw [Kind.unread_iff] at this
        rw [on.cache, this] at hs; cases hs
      have hf1 : k.noFault w1 := by rw [Kind.noFault_iff] at hf ⊢; exact on.noFault hf
      obtain ⟨s, w2, hx⟩ := (C17_read_exact k p e w1 o n schema (hr.steps st) (st.alive ho) hf1 (cur1 _) (cur1 _)).1.mpr
        ⟨x, hv _ e3 e1 e2⟩
      have sr := all w o schema schema' data hr ho hf
      rw [hw1, hx] at sr
      have hok : ∃ s w', Storage.read k.backend p e o n schema w = (.ok s, w') := by
        generalize Storage.read k.backend p e o n schema w = r at sr
        cases sr with
        | ok s w w' _ => exact ⟨_, _, rfl⟩
      obtain ⟨y, ⟨d, hd1, _⟩, ht, _⟩ := (C17_read_exact k p e w o n schema hr ho hf (cur0 _) (cur0 _)).1.mp hok
      rcases h3 with h3 | h3
      · rw [hno _ (C37_places k o n a hn ha (Ne.symm h3))] at hd1; cases hd1
      · rw [hno _ (C37_places k o _ a (hn.append sx) ha (Ne.symm h3))] at ht; cases ht
    have mp : ∀ s : String, strBytes s ≠ [] → k.mappable (strBytes s) := by
      intro s hs; cases k
      · trivial
      · exact hs
    constructor
    · rintro rfl
      refine key (m ++ ".schema" ++ ".schema") (strBytes "t") "t" nuls [] [] (hn.append sx) (by decide)
        (ne_of_length _ _ (by rw [lng, lng]; omega)) (ne_of_length _ _ (by rw [lng, lng]; omega))
        (.inl (ne_of_length _ _ (by rw [lng, lng]; omega))) ?_
      intro dir h1 h2 h3
      exact ⟨⟨image [], by rw [h3, nuls_bytes], holds_image _ (by decide), by decide⟩, h1, mp _ (by decide)⟩
    · rintro rfl
      refine key n (image []) nuls "t" [] [] hn (by decide) h (ne_of_length _ _ (by rw [lng, lng]; omega))
        (.inr h) ?_
      intro dir h1 h2 h3
      exact ⟨⟨image [], h1, holds_image _ (by decide), by decide⟩, by rw [h2, nuls_bytes], mp _ (by rw [nuls_bytes]; decide)⟩
  · rintro ⟨h1, h2⟩ w o schema schema' data hr ho hf
    exact (C37_write_other k p e w o n m schema schema' data hr ho hf hn hm h h1 h2).1

/-- Non-vacuity: names of both kinds. -/
example : PlainName "x" ∧ PlainName "x.schema" ∧ "x" ≠ "x.schema" ∧ "x.schema" = "x" ++ ".schema" ∧
    PlainName "y" ∧ "x" ≠ "y" ∧ "x" ≠ "y" ++ ".schema" ∧ "y" ≠ "x" ++ ".schema" := by decide

end Flatdata
