import Verif.Model.MonSearch
/-! # Two controllers and the baud rate search: what is expected -/
namespace LiCan
namespace Spec

/-- the commands given to the monitor controller between two states, oldest first -/
def newCmds (d d' : Duo) : List (DrvMode × Nat) := (d'.m.cmds.take (d'.m.cmds.length - d.m.cmds.length)).reverse

/-- the monitor controller during a change from rate `r` to rate `b` while the search goes on: stopped, started once at the old rate, stopped,
then listening at the new one -/
def switchCmds (r b : Nat) : List (DrvMode × Nat) := [(.stop, r), (.start, r), (.stop, r), (.listen, b), (.listen, b), (.listen, b)]

/-- the same at the end of a search at rate `b`, one of the four -/
def endCmds (r b : Nat) : List (DrvMode × Nat) := [(.stop, r), (.start, r), (.stop, r), (.listen, b), (.start, b)]

end Spec
end LiCan
