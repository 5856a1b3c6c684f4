import Verif.Model.SearchIrq
/-!
# Books on a search: at which rate the last frame came

Kept from the controller's rate (`hwRate`), the state of the search (`lcsa_..`/`li_can_slv_reconnect_get_state`)
and the number of rates set (`storedN`) only; the variable `pending` of the code is not used.
-/
namespace LiCan.Spec

structure Book where
  /-- rate of the controller when the last frame of this search came -/
  heard  : Option Nat := none
  /-- rate of the controller before the last change -/
  before : Nat := 0
deriving DecidableEq, Repr

/-- the book after the event `e` that led from `h` to `h'` -/
def Book.next (b : Book) (e : Hunt.HEv) (h h' : Hunt) : Book :=
  { heard := if h.s.rc.state = .off then none else if e = .msg then some h.s.slv.link.hwRate else b.heard
    before := if h'.s.slv.link.storedN = h.s.slv.link.storedN then b.before else h.s.slv.link.hwRate }

/-- a sequence of events, with the book -/
def hunt (env : AEnv) (h : Hunt) (b : Book) : List Hunt.HEv → Hunt × Book
  | [] => (h, b)
  | e :: es => hunt env (h.step env e) (b.next e h (h.step env e)) es

/-- no frame comes while the background is between reading the variable and acting on it -/
def Undisturbed (env : AEnv) (h : Hunt) : List Hunt.HEv → Prop
  | [] => True
  | e :: es => (e = .msg → h.todo = none) ∧ Undisturbed env (h.step env e) es

end LiCan.Spec
