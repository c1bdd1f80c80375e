import Verif.Proofs.Owner
import Verif.Proofs.Diff
/-!
# C61 — References never outlive their memory

Programs are lists of `Move`s: any client of storages, archives and builders that the compiler accepts, with any environment behind it.
-/
namespace Flatdata
open Spec Owner

section
variable [DiffLib]

/-- **C61**: whatever a client does, and whatever the environment answers, nothing is freed twice and no dropped storage is used (the run
does not end in undefined behaviour); and all references it has borrowed, and all those behind the accessors of its archives, point to
memory that has not been freed. -/
theorem C61_never_dangles (p : Profile) (e : Endian) (env : Nat → Option Bytes) (ms : List Move) :
    ∃ H, Holder.run p e (Holder.start env) ms = .ok H ∧
      (∀ s, H.Usable s → ∃ d, H.heap.regions s.base = some d ∧ s.off + s.len ≤ d.length) ∧
      (∀ v o, (v, .storage o) ∈ H.loans → (H.heap.stores o).isSome) := by
  obtain ⟨H, hr, f⟩ := Holder.run_fine (p := p) (e := e) ms (Holder.start_fine env)
  refine ⟨H, hr, fun s hs => ?_, fun v o hl => ?_⟩
  · have hv : ∃ o, Valid H.heap o s := by
      rcases hs with ⟨v, hl⟩ | ⟨v, A, path, o, xs, ss, i, j, x, hA, hp, hi, hj⟩
      · obtain ⟨x, _, o, _, hv⟩ := f.loans v _ hl
        exact ⟨o, hv⟩
      · obtain ⟨hv, _⟩ := Holder.sub_valid path A _ hp (f.archives v A hA)
        exact ⟨o, hv.1 x (List.mem_of_getElem? hi) s (List.mem_of_getElem? hj)⟩
    obtain ⟨o, st, k, d, _, _, h3, h4⟩ := hv
    exact ⟨d, h3, h4⟩
  · obtain ⟨x, hx, ho⟩ := f.mem hl rfl
    obtain ⟨st, hst⟩ := f.sound.alive (Holder.mem_holds hx ho)
    rw [hst]; rfl

/-- So reading them is defined. -/
theorem C61_readable (p : Profile) (e : Endian) (env : Nat → Option Bytes) (ms : List Move) {H : Holder}
    (hr : Holder.run p e (Holder.start env) ms = .ok H) {s : Slice Nat} (hs : H.Usable s) :
    ∃ b, owning.deref H.heap s = .ok b ∧ b.length = s.len := by
  obtain ⟨H', hr', h, _⟩ := C61_never_dangles p e env ms
  rw [hr] at hr'; cases hr'
  obtain ⟨d, hd, hl⟩ := h s hs
  have hc : owning.content H.heap s.base = d := by
    change (H.heap.regions s.base).getD [] = d
    rw [hd, Option.getD_some]
  unfold Backend.deref
  rw [hc, if_pos hl]
  refine ⟨_, rfl, ?_⟩
  rw [List.length_take, List.length_drop]
  omega

/-- The bytes behind a reference do not change, unless another process writes to the mapped file: no step of the client changes the bytes
of memory that was there before it and is there after it. -/
theorem C61_bytes_stay (p : Profile) (e : Endian) (env : Nat → Option Bytes) (ms : List Move) (m : Move) {H H' : Holder}
    (hr : Holder.run p e (Holder.start env) ms = .ok H) (hs : Holder.step p e H m = .ok H') (hm : ∀ r f, m ≠ .other r f)
    {s : Slice Nat} (hu : H.Usable s) (hu' : H'.Usable s) : owning.deref H'.heap s = owning.deref H.heap s := by
  obtain ⟨H1, h1, f1⟩ := Holder.run_fine (p := p) (e := e) ms (Holder.start_fine env)
  rw [hr] at h1; cases h1
  obtain ⟨H2, h2, f2, k⟩ := Holder.step_fine (p := p) (e := e) f1 m
  rw [hs] at h2; cases h2
  have k := k hm
  obtain ⟨_, hr1, l1, _⟩ := C61_never_dangles p e env ms
  rw [hr] at hr1; cases hr1
  obtain ⟨d, hd, _⟩ := l1 s hu
  have hrun : Holder.run p e (Holder.start env) (ms ++ [m]) = .ok H' := by
    rw [Holder.run_append, hr]
    change (Holder.step p e H m).bind _ = _
    rw [hs]; rfl
  obtain ⟨_, hr2, l2, _⟩ := C61_never_dangles p e env (ms ++ [m])
  rw [hrun] at hr2; cases hr2
  obtain ⟨d', hd', _⟩ := l2 s hu'
  have hlt : s.base < H.heap.nextRegion := by
    refine Classical.byContradiction fun hn => ?_
    rw [f1.sound.freshR s.base (by omega)] at hd
    cases hd
  have hsame : H'.heap.regions s.base = H.heap.regions s.base := by
    rcases k.same s.base hlt with h | h
    · exact h
    · rw [hd'] at h; cases h
  unfold Backend.deref
  change (if s.off + s.len ≤ ((H'.heap.regions s.base).getD []).length then _ else _) = _
  have hc : owning.content H'.heap s.base = owning.content H.heap s.base := by
    change (H'.heap.regions s.base).getD [] = (H.heap.regions s.base).getD []
    rw [hsame]
  rw [← hc]

/-- **C61**: a storage lives exactly as long as a variable owns it, its count is the number of times that it is owned, and memory is there
exactly as long as the storage that read it. -/
theorem C61_alive_exact (p : Profile) (e : Endian) (env : Nat → Option Bytes) (ms : List Move) {H : Holder}
    (hr : Holder.run p e (Holder.start env) ms = .ok H) :
    (∀ o, (H.heap.stores o).isSome ↔ ∃ x ∈ H.vars, o ∈ x.2.held) ∧
    (∀ o st, H.heap.stores o = some st → st.strong = (H.vars.map fun x => x.2.held.count o).sum) ∧
    (∀ r, (H.heap.regions r).isSome ↔ ∃ o st k, H.heap.stores o = some st ∧ (k, r) ∈ st.maps) := by
  obtain ⟨H1, h1, f⟩ := Holder.run_fine (p := p) (e := e) ms (Holder.start_fine env)
  rw [hr] at h1; cases h1
  refine ⟨fun o => ⟨fun h => ?_, fun ⟨x, hx, ho⟩ => ?_⟩, fun o st h => ?_, fun r => ⟨fun h => ?_, fun ⟨o, st, k, ho, hk⟩ => ?_⟩⟩
  · obtain ⟨st, hst⟩ := Option.isSome_iff_exists.mp h
    obtain ⟨x, hx, ho⟩ := List.mem_flatMap.mp (List.count_pos_iff.mp (f.sound.count o st hst).2)
    exact ⟨x, hx, ho⟩
  · obtain ⟨st, hst⟩ := f.sound.alive (Holder.mem_holds (v := x.1) hx ho)
    rw [hst]; rfl
  · rw [(f.sound.count o st h).1, List.nil_append]
    exact List.count_flatMap
  · obtain ⟨d, hd⟩ := Option.isSome_iff_exists.mp h
    exact f.sound.owned r d hd
  · obtain ⟨d, hd⟩ := f.sound.live o st k r ho hk
    rw [hd]; rfl

/-- Nothing leaks: when all variables are gone, no storage and no memory is left. -/
theorem C61_no_leak (p : Profile) (e : Endian) (env : Nat → Option Bytes) (ms : List Move) {H : Holder}
    (hr : Holder.run p e (Holder.start env) ms = .ok H) (hv : H.vars = []) (n : Nat) : H.heap.stores n = none ∧ H.heap.regions n = none := by
  obtain ⟨h1, _, h3⟩ := C61_alive_exact p e env ms hr
  have hs : ∀ o, H.heap.stores o = none := fun o => by
    cases h : H.heap.stores o with
    | none => rfl
    | some st =>
      obtain ⟨x, hx, _⟩ := (h1 o).mp (by rw [h]; rfl)
      rw [hv] at hx; cases hx
  refine ⟨hs n, ?_⟩
  cases h : H.heap.regions n with
  | none => rfl
  | some d =>
    obtain ⟨o, st, k, ho, _⟩ := (h3 n).mp (by rw [h]; rfl)
    rw [hs o] at ho; cases ho

end

/-! ## A client that opens an archive, keeps a subarchive and drops the rest -/

def homeDef : ArchiveDef := .mk "A" "s" [⟨"x", "t", false, .raw⟩] (.cons "u" false (.mk "B" "v" [⟨"y", "w", false, .raw⟩] .nil) .nil)

/-- The bytes of the resources and schemas in the order they are read. -/
def homeEnv (t : Nat) : Option Bytes :=
  [[0, 0, 0, 0, 0, 0, 0, 0, 0, 0, 0, 0, 0, 0, 0, 0], [0x73],
   [3, 0, 0, 0, 0, 0, 0, 0, 1, 2, 3, 0, 0, 0, 0, 0, 0, 0, 0], [0x74],
   [0, 0, 0, 0, 0, 0, 0, 0, 0, 0, 0, 0, 0, 0, 0, 0], [0x76],
   [2, 0, 0, 0, 0, 0, 0, 0, 4, 5, 0, 0, 0, 0, 0, 0, 0, 0], [0x77]][t]?

/-- A view of the state that can be compared: the names of the variables, what is borrowed, the counts of the first storages and
the lengths of the first regions. -/
structure HomeView where
  vars : List Nat
  loans : List (Nat × Option (Slice Nat))
  counts : List (Option Nat)
  sizes : List (Option Nat)
  deriving DecidableEq

def homeView (r : Out Holder) : Option HomeView :=
  match r with
  | .ok H => some ⟨H.vars.map (·.1), H.loans.map (fun x => (x.1, match x.2 with | .bytes s => some s | .storage _ => none)),
      (List.range 3).map (fun o => (H.heap.stores o).map (·.strong)), (List.range 9).map fun r => (H.heap.regions r).map (·.length)⟩
  | _ => none

/-- A storage is moved into an archive, the bytes of `x` are borrowed; dropping the archive does not compile. -/
def homeMoves : List Move := [.new [], .openA 0 homeDef, .look 1 [] 0 0, .drop 1]

theorem home_run : homeView (@Holder.run naiveDiff .release .little (Holder.start homeEnv) homeMoves) =
    some ⟨[1], [(1, some ⟨2, 8, 3⟩)], [some 1, some 1, none], [some 16, some 1, some 19, some 1, some 16, some 1, some 18, some 1, none]⟩ := by
  decide +kernel

/-- When the bytes are no longer used it does. A clone of the subarchive keeps its own storage and memory alive, and its bytes can still
be read. -/
def homeMore : List Move := homeMoves ++ [.cloneSub 1 [0], .release 0, .drop 1, .look 2 [] 0 0]

theorem home_more : homeView (@Holder.run naiveDiff .release .little (Holder.start homeEnv) homeMore) =
    some ⟨[2], [(2, some ⟨6, 8, 2⟩)], [none, some 1, none], [none, none, none, none, some 16, some 1, some 18, some 1, none]⟩ := by
  decide +kernel

/-- And after that nothing is left. -/
theorem home_end : homeView (@Holder.run naiveDiff .release .little (Holder.start homeEnv) (homeMore ++ [.release 0, .drop 2])) =
    some ⟨[], [], [none, none, none], [none, none, none, none, none, none, none, none, none]⟩ := by
  decide +kernel

/-- An archive whose subarchive cannot be read (its signature is not there): `open` fails, and all that was read is dropped. -/
theorem home_fail : homeView (@Holder.run naiveDiff .release .little (Holder.start fun t => if t = 4 then none else homeEnv t) [.new [], .clone 0, .openA 0 homeDef]) =
    some ⟨[1], [], [some 1, none, none], [some 16, some 1, some 19, some 1, none, none, none, none, none]⟩ := by
  decide +kernel

theorem home_usable {r : Out Holder} {vs : List Nat} {v : Nat} {s : Slice Nat} {rest : List (Nat × Option (Slice Nat))} {c z : List (Option Nat)}
    (h : homeView r = some ⟨vs, (v, some s) :: rest, c, z⟩) : ∃ H, r = .ok H ∧ H.Usable s := by
  cases hr : r with
  | ok H =>
    rw [hr] at h
    refine ⟨H, rfl, .inl ⟨v, ?_⟩⟩
    simp only [homeView, Option.some.injEq, HomeView.mk.injEq] at h
    have hl := h.2.1
    obtain ⟨⟨v, l⟩, rest, hx⟩ : ∃ x rest, H.loans = x :: rest := by
      cases hc : H.loans with
      | nil => rw [hc] at hl; cases hl
      | cons x rest => exact ⟨x, rest, rfl⟩
    rw [hx, List.map_cons, List.cons.injEq, Prod.mk.injEq] at hl
    cases l with
    | storage o => cases hl.1.2
    | bytes s =>
      obtain ⟨⟨hv, hs⟩, _⟩ := hl
      cases hs; cases hv
      rw [hx]; exact List.mem_cons_self ..
  | panic => rw [hr] at h; cases h
  | ub => rw [hr] at h; cases h

/-- `C61_never_dangles`, `C61_readable` and `C61_alive_exact` are about something: bytes are borrowed, and usable. -/
example : ∃ H, @Holder.run naiveDiff .release .little (Holder.start homeEnv) homeMoves = .ok H ∧ H.Usable ⟨2, 8, 3⟩ :=
  home_usable home_run

/-- So is `C61_bytes_stay`: a clone of the archive is made, and the bytes of the original are still borrowed. -/
theorem home_clone : homeView (@Holder.run naiveDiff .release .little (Holder.start homeEnv) (homeMoves ++ [.clone 1])) =
    some ⟨[2, 1], [(1, some ⟨2, 8, 3⟩)], [some 2, some 2, none], [some 16, some 1, some 19, some 1, some 16, some 1, some 18, some 1, none]⟩ := by
  decide +kernel

example : ∃ H H', @Holder.run naiveDiff .release .little (Holder.start homeEnv) homeMoves = .ok H ∧
    @Holder.step naiveDiff .release .little H (.clone 1) = .ok H' ∧ H.Usable ⟨2, 8, 3⟩ ∧ H'.Usable ⟨2, 8, 3⟩ := by
  obtain ⟨H, hr, hu⟩ := home_usable home_run
  obtain ⟨H', hr', hu'⟩ := home_usable home_clone
  refine ⟨H, H', hr, ?_, hu, hu'⟩
  rw [@Holder.run_append naiveDiff, hr] at hr'
  change (@Holder.step naiveDiff .release .little H (.clone 1)).bind (fun H => @Holder.run naiveDiff .release .little H []) = .ok H' at hr'
  cases hs : @Holder.step naiveDiff .release .little H (.clone 1) with
  | ok H'' => rw [hs] at hr'; exact hr'
  | panic => rw [hs] at hr'; cases hr'
  | ub => rw [hs] at hr'; cases hr'

/-- And `C61_no_leak`. -/
example : ∃ H, @Holder.run naiveDiff .release .little (Holder.start homeEnv) (homeMore ++ [.release 0, .drop 2]) = .ok H ∧ H.vars = [] := by
  have h := home_end
  cases hr : @Holder.run naiveDiff .release .little (Holder.start homeEnv) (homeMore ++ [.release 0, .drop 2]) with
  | ok H =>
    rw [hr] at h
    simp only [homeView, Option.some.injEq, HomeView.mk.injEq, List.map_eq_nil_iff] at h
    exact ⟨H, rfl, h.1⟩
  | panic => rw [hr] at h; cases h
  | ub => rw [hr] at h; cases h

end Flatdata
