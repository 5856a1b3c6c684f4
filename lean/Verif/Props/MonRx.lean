import Verif.Model.MonRx
import Verif.Props.MonExample
/-! # Frames the two controllers act on (C147) -/
namespace LiCan
namespace Spec

/-- A frame at the tick `now` is ignored: a search is on, or (with the option) its end `back` was less than 20 ms ago. -/
def Hushed (e : AdEnv) (rst : RState) (back now : Nat) : Prop :=
  rst ≠ .off ∨ e.opt = true ∧ now < e.ms2t ((back + 20) % 4294967296)

instance (e : AdEnv) (rst : RState) (back now : Nat) : Decidable (Hushed e rst back now) := by unfold Hushed; infer_instance

/-- a received frame -/
def isReceived : Mon.MIn → Bool
  | .main .. => true
  | .mon .. => true
  | _ => false

/-- What the process image sees of a history: `rst`, `back` are the variables of the search at its begin.  The main controller passes standard
frames, the monitor all frames, both only while no search is on (or just ended). -/
def passed (e : AdEnv) : RState → Nat → List AdIn → List Mon.MIn
  | _, _, [] => []
  | _, _, .search r b _ :: xs => passed e r b xs
  | r, b, .main now obj dlc id ext data :: xs =>
    if Hushed e r b now ∨ ext = true then passed e r b xs else .main now obj dlc id data :: passed e r b xs
  | r, b, .mon now obj dlc id ext data :: xs =>
    if Hushed e r b now then passed e r b xs
    else .mon now obj dlc (if ext then e.stdId id else id) data :: passed e r b xs
  | r, b, .call i :: xs => if isReceived i then passed e r b xs else i :: passed e r b xs

/-- What happens on the bus: a standard frame reaches both controllers, the main controller at the tick `n1` and the monitor at `n2`, in either
order and with nothing between; what the slave sent reaches only the monitor. -/
inductive OnBus
  | frame (monFirst : Bool) (n1 n2 o1 o2 dlc id : Nat) (data : List Byte)
  | own (now obj dlc id : Nat) (data : List Byte)
  | search (rst : RState) (back : Nat) (pending : Pending)
  | call (i : Mon.MIn)

/-- the interrupts -/
def OnBus.raise : OnBus → List AdIn
  | .frame false n1 n2 o1 o2 dlc id data => [.main n1 o1 dlc id false data, .mon n2 o2 dlc id false data]
  | .frame true n1 n2 o1 o2 dlc id data => [.mon n2 o2 dlc id false data, .main n1 o1 dlc id false data]
  | .own now obj dlc id data => [.mon now obj dlc id false data]
  | .search r b p => [.search r b p]
  | .call i => [.call i]

/-- With the option: no limit of 20 ms lies between the two interrupts of a frame (`b` is the last end of a search). -/
def Clear (e : AdEnv) : Nat → List OnBus → Prop
  | _, [] => True
  | b, .frame _ n1 n2 .. :: xs =>
    (e.opt = true → (n1 < e.ms2t ((b + 20) % 4294967296) ↔ n2 < e.ms2t ((b + 20) % 4294967296))) ∧ Clear e b xs
  | _, .search _ b _ :: xs => Clear e b xs
  | b, .own .. :: xs | b, .call _ :: xs => Clear e b xs

/-- frames with the identifier `id` at the main controller -/
def atMain (id : Nat) : Mon.MIn → Bool
  | .main _ _ _ i _ => i = id
  | _ => false

/-- frames with the identifier `id` at the monitor -/
def atMon (id : Nat) : Mon.MIn → Bool
  | .mon _ _ _ i _ => i = id
  | _ => false

/-- the slave sends nothing with the identifier `id` -/
def OnBus.notOwn (id : Nat) : OnBus → Bool
  | .own _ _ _ i _ => i ≠ id
  | _ => true

end Spec

namespace MonAd
open Spec

variable {e : AdEnv}

theorem skip_iff (a : MonAd) (now : Nat) : a.skip e now = true ↔ Hushed e a.rst a.back now := by
  simp [skip, Hushed, u32]

/-- C147, exactly: with both receive functions and any search, the slave with two controllers behaves as it does without them on the frames
that are passed.  So every theorem about `Mon.run` (C75 to C82) speaks about these. -/
theorem C147_exact : ∀ (xs : List AdIn) (a : MonAd),
    (a.run e xs).map (·.d) = Mon.run e.toMonEnv a.d (passed e a.rst a.back xs)
  | [], a => rfl
  | .search r b p :: xs, a => C147_exact xs { a with rst := r, back := b, pending := p }
  | .main now obj dlc id ext data :: xs, a => by
    simp only [run, step, mainRx, passed]
    by_cases hk : Hushed e a.rst a.back now
    · rw [if_pos (show ({ a with pending := .msg } : MonAd).skip e now = true from (skip_iff _ now).2 hk), if_pos (.inl hk)]
      exact C147_exact xs { a with pending := .msg }
    · rw [if_neg (show ¬ ({ a with pending := .msg } : MonAd).skip e now = true from fun k => hk ((skip_iff _ now).1 k))]
      cases ext with
      | true => rw [if_pos rfl, if_pos (.inr rfl)]; exact C147_exact xs { a with pending := .msg }
      | false =>
        rw [if_neg (by simp), if_neg (fun k => k.elim hk (by simp))]
        simp only [Mon.run, Mon.step]
        cases hd : a.d.handlerMain e.toMonEnv now obj dlc id data with
        | none => rfl
        | some d => exact C147_exact xs { a with pending := .msg, d := d }
  | .mon now obj dlc id ext data :: xs, a => by
    simp only [run, step, monRx, passed]
    by_cases hk : Hushed e a.rst a.back now
    · rw [if_pos ((skip_iff _ now).2 hk), if_pos hk]
      exact C147_exact xs a
    · rw [if_neg (fun k => hk ((skip_iff _ now).1 k)), if_neg hk]
      exact C147_exact xs { a with d := a.d.handlerMon e.toMonEnv now obj dlc (if ext then e.stdId id else id) data }
  | .call i :: xs, a => by
    simp only [run, step, passed]
    have ef : isReceived i = !isCall i := by cases i <;> rfl
    by_cases hi : isCall i = true
    · rw [if_pos hi, if_neg (by rw [ef, hi]; decide)]
      simp only [Mon.run]
      cases hd : a.d.step e.toMonEnv i with
      | none => rfl
      | some d => exact C147_exact xs { a with d := d }
    · rw [if_neg hi, if_pos (by rw [ef]; simpa using hi)]
      exact C147_exact xs a

/-- the receive functions do not change the variables of the search but the flag for a received frame -/
theorem C147_search_kept (xs : List AdIn) : ∀ (a a' : MonAd), (∀ r b p, AdIn.search r b p ∉ xs) → a.run e xs = some a' →
    a'.rst = a.rst ∧ a'.back = a.back ∧
    a'.pending = if xs.any (fun x => match x with | .main .. => true | _ => false) then .msg else a.pending := by
  induction xs with
  | nil => intro a a' _ h; injection h with h; subst h; exact ⟨rfl, rfl, rfl⟩
  | cons x xs ih =>
    intro a a' hn h
    simp only [run, Option.bind_eq_some_iff] at h
    obtain ⟨t, h1, h2⟩ := h
    obtain ⟨p, q, r⟩ := ih t a' (fun r b p k => hn r b p (List.mem_cons_of_mem _ k)) h2
    rw [p, q, r, List.any_cons]
    cases x with
    | search r b p => exact absurd (List.mem_cons_self ..) (hn r b p)
    | main now obj dlc id ext data =>
      have : t.rst = a.rst ∧ t.back = a.back ∧ t.pending = .msg := by
        simp only [step, mainRx] at h1
        split at h1
        · injection h1 with h1; subst h1; exact ⟨rfl, rfl, rfl⟩
        split at h1
        · injection h1 with h1; subst h1; exact ⟨rfl, rfl, rfl⟩
        · simp only [Option.map_eq_some_iff] at h1
          obtain ⟨d, -, rfl⟩ := h1; exact ⟨rfl, rfl, rfl⟩
      rw [this.1, this.2.1, this.2.2]
      refine ⟨rfl, rfl, ?_⟩
      simp
    | mon now obj dlc id ext data =>
      have : t.rst = a.rst ∧ t.back = a.back ∧ t.pending = a.pending := by
        simp only [step, monRx] at h1
        injection h1 with h1; subst h1
        split <;> exact ⟨rfl, rfl, rfl⟩
      rw [this.1, this.2.1, this.2.2]; exact ⟨rfl, rfl, by simp⟩
    | call i =>
      have : t.rst = a.rst ∧ t.back = a.back ∧ t.pending = a.pending := by
        simp only [step] at h1
        split at h1
        · simp only [Option.map_eq_some_iff] at h1
          obtain ⟨d, -, rfl⟩ := h1; exact ⟨rfl, rfl, rfl⟩
        · injection h1 with h1; subst h1; exact ⟨rfl, rfl, rfl⟩
      rw [this.1, this.2.1, this.2.2]; exact ⟨rfl, rfl, by simp⟩

/-- C147, the part that holds: a standard frame whose two interrupts (at the ticks `n1` and `n2`, in any order, with any message objects) come
without a change of the search between them is acted on by both controllers or by none, if no search is on at all, or one is on, or the
option is not used, or both ticks lie on the same side of the end of the 20 ms.  Missing: interrupts on different sides
(`C147_counterexample_boundary`) and extended frames (`C147_counterexample_extended`). -/
theorem C147_both_partial (rst : RState) (back n1 n2 o1 o2 dlc id : Nat) (data : List Byte)
    (h : n1 < e.ms2t ((back + 20) % 4294967296) ↔ n2 < e.ms2t ((back + 20) % 4294967296)) :
    passed e rst back [.main n1 o1 dlc id false data, .mon n2 o2 dlc id false data] =
      (if Hushed e rst back n1 then [] else [.main n1 o1 dlc id data, .mon n2 o2 dlc id data]) ∧
    passed e rst back [.mon n2 o2 dlc id false data, .main n1 o1 dlc id false data] =
      (if Hushed e rst back n1 then [] else [.mon n2 o2 dlc id data, .main n1 o1 dlc id data]) := by
  have hh : Hushed e rst back n1 ↔ Hushed e rst back n2 := by unfold Hushed; rw [h]
  by_cases k : Hushed e rst back n1
  · have k2 := hh.1 k
    simp [passed, k, k2]
  · have k2 : ¬ Hushed e rst back n2 := fun x => k (hh.2 x)
    simp [passed, k, k2]

theorem passed_pair (rst : RState) (back : Nat) (f : Bool) (n1 n2 o1 o2 dlc id : Nat) (data : List Byte) (xs : List AdIn)
    (h : e.opt = true → (n1 < e.ms2t ((back + 20) % 4294967296) ↔ n2 < e.ms2t ((back + 20) % 4294967296))) :
    passed e rst back ((OnBus.frame f n1 n2 o1 o2 dlc id data).raise ++ xs) =
      (if Hushed e rst back n1 then []
       else if f then [.mon n2 o2 dlc id data, .main n1 o1 dlc id data] else [.main n1 o1 dlc id data, .mon n2 o2 dlc id data]) ++
      passed e rst back xs := by
  have hh : Hushed e rst back n1 ↔ Hushed e rst back n2 := by
    unfold Hushed
    cases ho : e.opt with
    | false => simp
    | true => rw [h ho]
  by_cases k : Hushed e rst back n1
  · have k2 := hh.1 k
    cases f <;> simp [passed, OnBus.raise, k, k2]
  · have k2 : ¬ Hushed e rst back n2 := fun x => k (hh.2 x)
    cases f <;> simp [passed, OnBus.raise, k, k2]

/-- C147 over whole histories: if no search and no limit ends between the two interrupts of a frame, then of every identifier that the slave
does not send itself the process image sees as many frames from the main controller as from the monitor, whatever the search does. -/
theorem C147_balanced (id : Nat) : ∀ (xs : List OnBus) (rst : RState) (back : Nat), Clear e back xs → xs.all (OnBus.notOwn id) = true →
    (passed e rst back (xs.flatMap OnBus.raise)).countP (atMain id) = (passed e rst back (xs.flatMap OnBus.raise)).countP (atMon id)
  | [], _, _, _, _ => rfl
  | .search r b p :: xs, _, _, h, ho => C147_balanced id xs r b h ho
  | .frame f n1 n2 o1 o2 dlc i data :: xs, rst, back, h, ho => by
    have ih := C147_balanced id xs rst back h.2 ho
    rw [List.flatMap_cons, passed_pair _ _ _ _ _ _ _ _ _ _ _ h.1, List.countP_append, List.countP_append, ih]
    congr 1
    split
    · rfl
    · cases f <;> simp [List.countP_cons, atMain, atMon]
  | .own now obj dlc i data :: xs, rst, back, h, ho => by
    rw [List.all_cons, Bool.and_eq_true] at ho
    have ih := C147_balanced id xs rst back h ho.2
    have hi : i ≠ id := by simpa [OnBus.notOwn] using ho.1
    simp only [List.flatMap_cons, OnBus.raise, List.cons_append, List.nil_append, passed]
    split
    · exact ih
    · simp [List.countP_cons, atMain, atMon, hi, ih]
  | .call c :: xs, rst, back, h, ho => by
    have ih := C147_balanced id xs rst back h ho
    simp only [List.flatMap_cons, OnBus.raise, List.cons_append, List.nil_append, passed]
    split
    · exact ih
    · rename_i hc
      rw [List.countP_cons, List.countP_cons, ih]
      cases c <;> first | rfl | exact absurd rfl hc

/-! ## Examples -/
open Mon

/-- the slave of the monitor examples; extended identifiers are cut to 11 bits -/
def exAd (opt : Bool) : AdEnv := { exMe with opt := opt, stdId := fun x => x % 2048 }

/-- standard frames at a tick, as seen by the receive functions -/
def at_ (t : Nat) : MIn → AdIn
  | .main _ obj dlc id data => .main t obj dlc id false data
  | .mon _ obj dlc id data => .mon t obj dlc id false data
  | i => .call i

/-- the verdicts after registrations and two requests, what comes in a period, and the next request on both controllers -/
def adValid (opt : Bool) (xs : List AdIn) : Option (List Bool) :=
  exReady.bind fun d => (run (exAd opt) { d := d } ([rqA 0, rqB 0].map (at_ 30) ++ xs ++ [rqA 0, rqB 0].map (at_ 130))).map
    fun a => (List.range 2).map a.d.s.sync.valid

/-- the frame for module 9 at both controllers at given ticks -/
def ad9 (n1 n2 : Nat) : List AdIn := [.main n1 7 2 0x220 false [5, 6], .mon n2 9 2 0x220 false [5, 6]]

/-- without a search both modules are valid, also with frames ignored by both controllers -/
example : adValid false ((tx5 ++ rx5 ++ tx9).map (at_ 80) ++ ad9 90 91) = some [true, true] ∧
    adValid true ((tx5 ++ rx5 ++ tx9).map (at_ 80) ++ ad9 90 91) = some [true, true] ∧
    adValid false ([.search .on 0 .lec] ++ ad9 40 40 ++ [.search .off 50 .msg] ++ (tx5 ++ rx5 ++ tx9).map (at_ 80) ++ ad9 90 91) =
      some [true, true] := by decide +kernel

/-- C147 as wished is false: every frame reaches both controllers and is right, but the search ends between the two interrupts of one frame,
or (with the option) the 20 ms do, and the module is found not valid because only the monitor counted the frame. -/
theorem C147_counterexample_boundary :
    adValid false ([.search .on 0 .lec] ++ [.main 50 7 2 0x220 false [5, 6], .search .off 50 .msg, .mon 50 9 2 0x220 false [5, 6]] ++
      (tx5 ++ rx5 ++ tx9).map (at_ 80) ++ ad9 90 91) = some [true, false] ∧
    adValid true ([.search .on 0 .lec, .search .off 50 .msg] ++ ad9 69 70 ++ (tx5 ++ rx5 ++ tx9).map (at_ 80) ++ ad9 90 91) =
      some [true, false] := by decide +kernel

/-- C147 as wished is false for extended frames: the main controller ignores them, the monitor takes one for the standard frame its
identifier is cut to.  A period in which all standard frames are right, with one extended frame more. -/
theorem C147_counterexample_extended :
    adValid false ((tx5 ++ rx5 ++ tx9).map (at_ 80) ++ ad9 90 91 ++
      [.main 92 7 2 0x10000220 true [5, 6], .mon 92 9 2 0x10000220 true [5, 6]]) = some [true, false] := by decide +kernel

/-- the hypothesis of `C147_both_partial`, frames passed and ignored -/
example : (90 < (exAd true).ms2t ((1 + 20) % 4294967296) ↔ 91 < (exAd true).ms2t ((1 + 20) % 4294967296)) ∧
    (passed (exAd true) .off 1 (ad9 90 91)).length = 2 ∧ (passed (exAd true) .off 1 (ad9 9 10)).length = 0 ∧
    (passed (exAd true) .off 1 (ad9 20 21)).length = 1 ∧ (passed (exAd true) .on 1 (ad9 90 91)).length = 0 := by decide +kernel

/-- the hypotheses of `C147_search_kept` -/
example : ∃ d a', run (exAd false) { d := d } (ad9 90 91) = some a' ∧ ∀ r b p, AdIn.search r b p ∉ ad9 90 91 := by
  have h : (exReady.bind fun d => run (exAd false) { d := d } (ad9 90 91)).isSome = true := by decide +kernel
  obtain ⟨a', h⟩ := Option.isSome_iff_exists.1 h
  obtain ⟨d, -, h⟩ := Option.bind_eq_some_iff.1 h
  exact ⟨d, a', h, fun r b p => by simp [ad9]⟩

/-- the hypotheses of `C147_balanced`: a search, ignored frames, frames around the limit, frames of the slave -/
def exBus : List OnBus :=
  [.frame false 40 41 7 9 2 0x220 [5, 6], .search .on 0 .lec, .frame true 50 50 7 9 2 0x220 [5, 6], .search .off 50 .msg,
   .frame false 68 69 7 9 2 0x220 [5, 6], .frame true 71 70 7 9 2 0x220 [5, 6], .own 80 6 2 0x420 [130, 131], .call (.allCb none)]

example : Clear (exAd true) 0 exBus ∧ exBus.all (OnBus.notOwn 0x220) = true ∧
    (passed (exAd true) .off 0 (exBus.flatMap OnBus.raise)).countP (atMain 0x220) = 2 ∧
    (passed (exAd false) .off 0 (exBus.flatMap OnBus.raise)).countP (atMon 0x220) = 3 := by
  refine ⟨⟨fun _ => ?_, fun _ => ?_, fun _ => ?_, fun _ => ?_, trivial⟩, ?_, ?_, ?_⟩ <;> decide +kernel

end MonAd
end LiCan
