import Verif.Rust

/-! Model of `/repo/src/utils.rs`. -/

namespace Model.Utils
open Rust

/-- `read_u32_le`, src/utils.rs:2-7. -/
def read_u32_le (data : List U8) : Res U32 := do
  let d0 ← sget data 0
  let d1 ← sget data 1
  let d2 ← sget data 2
  let d3 ← sget data 3
  pure (d0.setWidth 32 |||
    (d1.setWidth 32 <<< 8) |||
    (d2.setWidth 32 <<< 16) |||
    (d3.setWidth 32 <<< 24))

/-- `read_u64_le`, src/utils.rs:10-19. -/
def read_u64_le (data : List U8) : Res U64 := do
  let d0 ← sget data 0
  let d1 ← sget data 1
  let d2 ← sget data 2
  let d3 ← sget data 3
  let d4 ← sget data 4
  let d5 ← sget data 5
  let d6 ← sget data 6
  let d7 ← sget data 7
  pure (d0.setWidth 64 |||
    (d1.setWidth 64 <<< 8) |||
    (d2.setWidth 64 <<< 16) |||
    (d3.setWidth 64 <<< 24) |||
    (d4.setWidth 64 <<< 32) |||
    (d5.setWidth 64 <<< 40) |||
    (d6.setWidth 64 <<< 48) |||
    (d7.setWidth 64 <<< 56))

end Model.Utils
