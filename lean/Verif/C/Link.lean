import Verif.C.Sem

/-! # Programs of several files -/

namespace Frodo.Src

/-- Calls from one function to others (C11 6.2.2p2, 6.5.2.2): to the functions of the given files, nested at most `d` deep; to
those of `string.h`; and to functions outside of the files, as given by `X`. -/
def link (Fs : List File) (X : Ctx) : Nat → Ctx
  | 0 => { X with call := withString X.arch fun f args m next =>
      match Fs.findSome? (·.fn f) with
      | some _ => .div
      | none => X.call f args m next }
  | d + 1 => { X with call := withString X.arch fun f args m next =>
      match Fs.findSome? (·.fn f) with
      | some g => callFun (link Fs X d) g args m next
      | none => X.call f args m next }

end Frodo.Src
