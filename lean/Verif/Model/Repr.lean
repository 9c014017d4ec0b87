import Verif.Model.GConv

/-! # Model of the `extra_repr` methods (gconv.py:192-204, kernel.py:116-122) -/

namespace GConv.Conv

/-- `str` of a tuple of integers: `()`, `(3,)`, `(3, 3)`. -/
def reprTuple (l : List String) : String :=
  match l with
  | [] => "()"
  | [a] => "(" ++ a ++ ",)"
  | a :: b :: l => "(" ++ a ++ ", " ++ ", ".intercalate (b :: l) ++ ")"

/-- `str` of a natural number. -/
def reprNat (n : ℕ) : String := n.repr

/-- `str` of an integer. -/
def reprInt : ℤ → String
  | .ofNat n => reprNat n
  | .negSucc n => "-" ++ reprNat (n + 1)

/-- `str(self.group_kernel_size)`. -/
def GroupSize.repr : GroupSize → String
  | .int n => reprInt n
  | .tuple l => reprTuple (l.map reprInt)

/-- `str(self.stride)`, `str(self.dilation)`. -/
def Dims.repr : Dims → String
  | .int n => reprNat n
  | .tuple l => reprTuple (l.map reprNat)

/-- `str(self.padding)`. -/
def PadArg.repr : PadArg → String
  | .str s => s
  | .int p => reprNat p
  | .tuple l => reprTuple (l.map reprNat)

/-- `if self.padding != (0,) * len(self.padding): s += f", padding={self.padding}"`, gconv.py:194-195.  A string is never
equal to a tuple; `len` of an integer is a TypeError (the constructor turns integers into tuples). -/
def paddingPart : PadArg → Except PyErr String
  | .int _ => .error .typeError
  | .str s => .ok (", padding=" ++ (PadArg.str s).repr)
  | .tuple l => .ok (if l ≠ List.replicate l.length 0 then ", padding=" ++ (PadArg.tuple l).repr else "")

/-- `if self.dilation != (1,) * len(self.dilation): s += f", dilation={self.dilation}"`, gconv.py:196-197; `len` of an
integer is a TypeError. -/
def dilationPart : Dims → Except PyErr String
  | .int _ => .error .typeError
  | .tuple l => .ok (if l ≠ List.replicate l.length 1 then ", dilation=" ++ (Dims.tuple l).repr else "")

/-- `GroupConvNd.extra_repr`, gconv.py:192-204; `gks` is `self.group_kernel_size` and `bias` is
`self.bias is not None`. -/
def Layer.extraRepr (L : Layer) (gks : GroupSize) (bias : Bool) : Except PyErr String := do
  let s := reprNat L.inC ++ ", " ++ reprNat L.outC ++ ", kernel_size=" ++ (Dims.tuple L.kernelSize).repr ++ ", group_kernel_size=" ++
    gks.repr ++ ", stride=" ++ L.stride.repr
  let p ← paddingPart L.padding
  let d ← dilationPart L.dilation
  let g := if L.groups ≠ 1 then ", groups=" ++ reprNat L.groups else ""
  let b := if bias then "" else ", bias=False"
  let m := if L.paddingMode ≠ "zeros" then ", padding_mode=" ++ L.paddingMode else ""
  return s ++ p ++ d ++ g ++ b ++ m

end GConv.Conv

namespace GConv.GroupKernel

variable {G : Type} {d : ℕ}

/-- `GroupKernel.extra_repr`, kernel.py:116-122; `kwH`, `kwRn` are the texts of `sample_H_kwargs` and `sample_Rn_kwargs`
(`none` for an empty dictionary): their contents are folded into the callables of the model. -/
def extraRepr (K : GroupKernel G d) (kwH kwRn : Option String) : String :=
  "mask=" ++ (if K.mask.isSome then "True" else "False") ++
    (match kwH with | none => "" | some t => ", sample_H_kwargs=" ++ t) ++
    (match kwRn with | none => "" | some t => ", sample_Rn_kwargs=" ++ t)

end GConv.GroupKernel
