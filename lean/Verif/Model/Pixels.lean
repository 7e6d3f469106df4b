import Verif.Model.Bytes
/-
/repo/src/vpx/lzw.rs (block framing only) and /repo/src/vpx/image.rs (pixel order).
-/
namespace Vpin

/-- `from_blocks`, /repo/src/vpx/lzw.rs:16-26: a length byte and that many bytes, repeatedly; the
`unwrap` panics if the data ends inside a block -/
def fromBlocks : Nat → Bytes → Res Bytes
  | _, [] => .ok []
  | 0, _ => .error .fuel
  | f + 1, n :: rest =>
    if rest.length < n.toNat then .error .panic
    else match fromBlocks f (rest.drop n.toNat) with
      | .ok bs => .ok (rest.take n.toNat ++ bs)
      | .error e => .error e

/-- the loop of `to_blocks`, /repo/src/vpx/lzw.rs:33-51, with the state (blocks, block, block_len).
`block_len` is a `u8`: the addition would overflow (panic) if it could pass 255. -/
def toBlocksLoop (max : UInt8) : Bytes → Bytes → UInt8 → Bytes → Bytes
  | blocks, block, len, [] => if 0 < len then blocks ++ [len] ++ block else blocks
  | blocks, block, len, b :: rest =>
    let block := block ++ [b]
    let len := len + 1
    if len = max then toBlocksLoop max (blocks ++ [len] ++ block) [] 0 rest
    else toBlocksLoop max blocks block len rest

/-- `to_blocks`, /repo/src/vpx/lzw.rs:33-51 -/
def toBlocks (max : UInt8) (compressed : Bytes) : Bytes := toBlocksLoop max [] [] 0 compressed

/-- `from_blocks` with enough fuel for every input: each step takes at least the length byte, /repo/src/vpx/lzw.rs:65-69 -/
def fromBlocksAll (bs : Bytes) : Res Bytes := fromBlocks bs.length bs

/-- `to_lzw_blocks`, /repo/src/vpx/lzw.rs:59-63; the LZW coder (external crate weezl) is a
parameter -/
def toLzwBlocks (toLzw : Bytes → Bytes) (data : Bytes) : Bytes := toBlocks 254 (toLzw data)

/-- `from_lzw_blocks`, /repo/src/vpx/lzw.rs:65-69; the LZW decoder panics on bad data -/
def fromLzwBlocks (fromLzw : Bytes → Res Bytes) (compressed : Bytes) : Res Bytes :=
  match fromBlocksAll compressed with
  | .ok bs => fromLzw bs
  | .error e => .error e

/-- `swap_red_and_blue`, /repo/src/vpx/image.rs:551-557: `chunks_exact(4)` leaves out a rest of
fewer than four bytes -/
def swapRedAndBlue : Bytes → Bytes
  | a :: b :: c :: d :: rest => c :: b :: a :: d :: swapRedAndBlue rest
  | _ => []

end Vpin
