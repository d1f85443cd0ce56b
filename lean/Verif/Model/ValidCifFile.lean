import Verif.Model.ValidFile
/-! # Files of valid blocks

Models `ValidCifFile` (CifFile_module.nw 3763-3793) with a dictionary object as argument `dic`. What `CifFile.__init__` reads is
the collection the model starts from. -/
namespace Verif
namespace Validate
variable [CaseFold]

/-- `for blockname in self.keys(): self.dictionary[blockname]=ValidCifBlock(data=self.dictionary[blockname],dic=self.bigdic)`
(CifFile_module.nw 3778-3779). -/
def wrapBlocks (C : Checks) (c : Coll) : List Str → Coll × Except PyErr Unit
  | [] => (c, .ok ())
  | k :: ks =>
    match dget c.dict k with
    | none => (c, .error .key)
    | some b =>
      match validBlock C b with
      | .error e => (c, .error e)
      | .ok b' => wrapBlocks C { c with dict := dset c.dict k b' } ks

/-- `ValidCifFile.__init__` (CifFile_module.nw 3770-3779): `c` is what the constructor of `CifFile` made. -/
def openValid (C : Checks) (c : Coll) : Coll × Except PyErr Unit := wrapBlocks C c c.keys

/-- The second part of `NewBlock` (CifFile_module.nw 3791-3792), which looks for the name as it was given. -/
def wrapNew (C : Checks) (c : Coll) (blockname : Str) : Coll × Except PyErr Unit :=
  match dget c.dict blockname with
  | none => (c, .error .key)
  | some b =>
    match validBlock C b with
    | .error e => (c, .error e)
    | .ok b' => ({ c with dict := dset c.dict blockname b' }, .ok ())

/-- `ValidCifFile.NewBlock` (CifFile_module.nw 3787-3792). -/
def vNewBlock (C : Checks) (c : Coll) (blockname : Str) (contents : Block) (fix : Bool := true) (parent : Option Str := none) :
    Coll × Except PyErr Unit :=
  match c.newBlock blockname contents fix parent with
  | (c', .error e) => (c', .error e)
  | (c', .ok _) => wrapNew C c' blockname

end Validate
end Verif
