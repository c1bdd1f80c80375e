import Verif.Proofs.MDisturbed
import Verif.Proofs.Format
import Verif.Props.Disturbed
import Verif.Props.MultiVectors
/-!
# Property C71 for multivectors: files changed by others while a multivector is being written
-/
namespace Flatdata
open Spec StorageExample VecExample DistExample

/-- After a successful creation, whatever was there before. -/
theorem created_mmine {p : Profile} {e : Endian} {o : Obj} {name schema : String} {w0 w : FileW} {v : MultiVec file} (V : Variadic)
    (hr : Kind.Reachable .disk w0) (ho : Kind.alive .disk w0 o)
    (h : createMultiVector (B := file) p e o name schema w0 = (.ok v, w)) : MMine o name schema V w v [] [] := by
  have hst : Kind.Steps .disk w0 w := Kind.steps_of (k := .disk) (fun _ => Kind.pres_createMultiVector) ho h
  have inv : FileSt.Inv w := Kind.Steps.inv hst hr.inv
  rcases createMultiVector_spec (L := fileLaws) p e o name schema V w0 (Kind.apart .disk o name) trivial trivial trivial trivial with
    ⟨v', w', h1, i, _⟩ | ⟨_, _, h1, _⟩ | ⟨_, h1, _⟩
  · rw [h] at h1; cases h1
    obtain ⟨s, hs, a⟩ := i.index.writing.stream
    have hp : (w.fs.fds s).2 = 8 := by
      have := a.pos
      rw [List.append_nil, length_le64] at this
      exact this
    obtain ⟨t, ht, b⟩ := i.data.stream
    have hq : (w.fs.fds t).2 = 8 := by
      have := b.pos
      rw [List.append_nil, length_le64] at this
      exact this
    exact ⟨⟨i.index.writing.obj, i.index.writing.nameEq, i.index.writing.schemaEq, i.index.writing.size,
        ⟨s, hs, a.live, Prod.ext a.sloc hp⟩, Nat.le_refl _, inv, i.index.rep, i.index.len, i.index.all⟩,
      ⟨i.data.obj, i.data.nameEq, i.data.schemaEq, i.data.size, ⟨t, ht, b.live, Prod.ext b.sloc hq⟩, Nat.le_refl _, inv,
        ⟨allSize_bits [], i.buf⟩, rfl, allSize_bits []⟩, i.flushed⟩
  · rw [h] at h1; cases h1
  · rw [h] at h1; cases h1

theorem Spec.MDisturbed.variants {p : Profile} {e : Endian} {V : Variadic} {w w1 : FileW} {v v1 : MultiVec file}
    {its : List (List Add)} (g : MDisturbed p e V w v its w1 v1) : ∀ as ∈ its, ∀ a ∈ as, (a.type, a.struct) ∈ V.types := by
  induction g with
  | start => intro as h; cases h
  | grow _ _ ih =>
    intro as h
    rcases List.mem_append.mp h with h | h
    · exact ih as h
    · rw [List.mem_singleton.mp h]; intro a ha; cases ha
  | @add its as w1 v1 a d pos d' _ hm _ _ ih =>
    intro bs h
    rcases List.mem_append.mp h with h | h
    · exact ih bs (List.mem_append.mpr (.inl h))
    · rw [List.mem_singleton.mp h]
      intro b hb
      rcases List.mem_append.mp hb with hb | hb
      · exact ih as (by simp) b hb
      · rw [List.mem_singleton.mp hb]; exact hm
  | failed _ _ ih => exact ih
  | call _ _ _ _ _ ih => exact ih
  | outside _ _ ih => exact ih

/-- C71 for multivectors whose index and whose data have at most 32 MiB: whatever others do to the two files meanwhile, the
view returned by `close` has exactly the bytes of the items, and shows them. -/
theorem C71_multivec_partial [DiffLib] (p : Profile) (e : Endian) (V : Variadic) (ok : VariadicOK V) (o : Obj) (name schema : String)
    (w0 w w1 w2 : FileW) (v v1 : MultiVec file) (its : List (List Add)) (si sd : Slice Key) (hr : Kind.Reachable .disk w0)
    (ho : Kind.alive .disk w0 o) (hc : createMultiVector (B := file) p e o name schema w0 = (.ok v, w))
    (g : MDisturbed p e V w v its w1 v1) (hsI : (its.length + 1) * V.indexSize + 8 ≤ 32 * 1024 * 1024)
    (hsm : dataSize its + 8 ≤ 32 * 1024 * 1024) (hbits : dataSize its < 2 ^ V.indexBits)
    (h : v1.close p e V w1 = (.ok (si, sd), w2)) :
    ∃ xss, AllContents p e its xss ∧ file.deref w2 si = .ok (indexBytes V.indexSize xss) ∧
      file.deref w2 sd = .ok (encodeItems xss) ∧ Shows V ⟨indexBytes V.indexSize xss, encodeItems xss⟩ xss := by
  have hlim : bufferLimit = 33554432 := by decide
  have hsI' := hsI
  rw [Nat.add_mul, Nat.one_mul] at hsI'
  obtain ⟨bufI, body, xss, s⟩ := mdisturbed_inv ok.index (by omega) (created_mmine V hr ho hc) g (by omega) (by omega)
  obtain ⟨l1, l2⟩ := s.length
  obtain ⟨x, hx, dI, dD⟩ := s.inv.close ok.index (by omega) (by rw [l2]; omega) (by omega) h
  rw [l1] at hx
  have hxs : Elements p e V.indexStruct ((indexNumbers its).map (indexOps V)) (bufI ++ [x]) := by
    rw [indexNumbers, List.map_append]
    exact s.index.snoc (ops := indexOps V (dataSize its)) hx
  have hi := written_index ok.index hxs s.contents hbits
  have hsh := (written_view ok hxs s.contents g.variants hbits (by omega)).2.2
  rw [hi] at dI hsh
  rw [s.data] at dD
  exact ⟨xss, s.contents, dI, dD, hsh⟩

namespace DistExample

/-- Another process fills both files with something else. -/
def mgarble (w : FileW) : FileW :=
  { garble w with fs := { (garble w).fs with files := upd (garble w).fs.files (key (join objD.path "x_index")) (some [1#8]) } }

theorem mgarble_files (w : FileW) : (mgarble w).fs.files (key (join objD.path "x")) = some (zeros 11 ++ [7#8, 7#8]) ∧
    (mgarble w).fs.files (key (join objD.path "x_index")) = some [1#8] := by
  have h : ∀ k, (mgarble w).fs.files k = upd (upd w.fs.files (key (join objD.path "x")) (some (zeros 11 ++ [7#8, 7#8])))
      (key (join objD.path "x_index")) (some [1#8]) k := fun _ => rfl
  have hne : key (join objD.path "x") ≠ key (join objD.path "x_index") := by decide +kernel
  rw [h, h, upd_same, upd_other _ _ hne, upd_same]
  exact ⟨rfl, rfl⟩

theorem mgarble_outside (w : FileW) : Outside w (mgarble w) := by
  refine ⟨rfl, rfl, rfl, rfl, fun k hk => ?_⟩
  change upd (upd w.fs.files (key (join objD.path "x")) (some (zeros 11 ++ [7#8, 7#8])))
      (key (join objD.path "x_index")) (some [1#8]) k ≠ none
  by_cases he : k = key (join objD.path "x_index")
  · rw [he, upd_same]; simp
  · rw [upd_other _ _ he]
    by_cases hf : k = key (join objD.path "x")
    · rw [hf, upd_same]; simp
    · rw [upd_other _ _ hf]; exact hk

/-- The struct that is added. -/
def nick : Add := ⟨0#8, Coappearances.Nickname, [.set (.plain "ref_" .u32 0 32) 7]⟩

/-- Creates a multivector, adds an item, lets another process change both files, and closes the multivector. -/
def msmallRun : Act FileW RErr (Slice Key × Slice Key) := do
  let v ← (createMultiVector (B := file) .debug .little objD "x" "s").mapErr (RErr.io · "x")
  let r ← (v.grow .debug .little Coappearances.VerticesData).mapErr Empty.elim
  let _ ← (Act.ofExcept r.1).mapErr (RErr.io · "x")
  let b ← Act.lift (MultiVec.builderAdd .debug nick.type nick.struct.size r.2.data)
  let d ← Act.lift (Vector.writeAt .debug .little nick.struct b.1 b.2 nick.ops)
  let _ ← (fun w => (.ok (), mgarble w) : Act FileW RErr Unit)
  @MultiVec.close file .debug .little naiveDiff Coappearances.VerticesData { r.2 with data := d }

theorem msmallRun_ok : (msmallRun (disk0 [])).1.isOk = true := by decide +kernel

end DistExample

/-- The hypotheses of `C71_multivec_partial` can be met: one item, and both files filled with something else by another
process. -/
example : ∃ v w v1 w1 si sd w2, createMultiVector (B := file) .debug .little objD "x" "s" (disk0 []) = (.ok v, w) ∧
    MDisturbed .debug .little Coappearances.VerticesData w v [[nick]] w1 v1 ∧
    w1.fs.files (key (join objD.path "x")) = some (zeros 11 ++ [7#8, 7#8]) ∧
    w1.fs.files (key (join objD.path "x_index")) = some [1#8] ∧
    @MultiVec.close file .debug .little naiveDiff Coappearances.VerticesData v1 w1 = (.ok (si, sd), w2) ∧
    file.deref w2 si = .ok [0#8, 0#8, 0#8, 0#8, 5#8, 0#8, 0#8, 0#8] ∧
    file.deref w2 sd = .ok [0#8, 7#8, 0#8, 0#8, 0#8] := by
  obtain ⟨s, w2, h⟩ := isOk_run msmallRun_ok
  obtain ⟨si, sd⟩ := s
  unfold msmallRun at h
  obtain ⟨v, w, h1, k1⟩ := Act.bind_eq_ok h
  have hc := mapErr_eq_ok h1
  obtain ⟨r, wa, h2, k2⟩ := Act.bind_eq_ok k1
  have hg := mapErr_eq_ok h2
  obtain ⟨u, wb, h3, k3⟩ := Act.bind_eq_ok k2
  have h3' := mapErr_eq_ok h3
  obtain ⟨r1, v2⟩ := r
  cases r1 with
  | error x => cases h3'
  | ok u' =>
    cases h3'
    obtain ⟨b, wc, h4, k4⟩ := Act.bind_eq_ok k3
    obtain ⟨hb, hwc⟩ := Act.lift_eq_ok h4
    obtain ⟨d, wd, h5, k5⟩ := Act.bind_eq_ok k4
    obtain ⟨hd, hwd⟩ := Act.lift_eq_ok h5
    obtain ⟨u2, we, h6, k6⟩ := Act.bind_eq_ok k5
    obtain rfl : mgarble wd = we := congrArg Prod.snd h6
    rw [hwd, hwc] at k6
    have g : MDisturbed .debug .little Coappearances.VerticesData w v [[nick]] (mgarble wa) { v2 with data := d } :=
      .outside (.add (its := []) (as := []) (.grow (its := []) .start hg) (by simp [nick, Coappearances.VerticesData]) hb hd)
        (mgarble_outside _)
    obtain ⟨xss, hx, hI, hD, _⟩ := @C71_multivec_partial naiveDiff .debug .little Coappearances.VerticesData MultiExample.ok objD "x" "s"
      (disk0 []) w (mgarble wa) w2 v _ _ si sd (disk0_reachable _ _) (show 0 < 1 by decide) hc g (by decide) (by decide) (by decide) k6
    have hx' : AllContents .debug .little [[nick]] [[(0#8, [7#8, 0#8, 0#8, 0#8])]] := ⟨⟨rfl, by decide, trivial⟩, trivial⟩
    rw [hx.unique hx'] at hI hD
    exact ⟨v, w, _, mgarble wa, si, sd, w2, hc, g, (mgarble_files wa).1, (mgarble_files wa).2, k6, by rw [hI]; decide, by rw [hD]; decide⟩

end Flatdata
