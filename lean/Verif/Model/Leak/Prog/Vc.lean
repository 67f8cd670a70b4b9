/-
Generated by tools/c2leak.py; do not edit.
Functions of vc.c.
-/
import Verif.Model.Leak.IR
import Verif.Model.Leak.Prog.Ids

namespace Faest.Leak.Prog

/-- `getBinaryTreeNodeCount`, vc.c:79-81; variables: 0 depth -/
def getBinaryTreeNodeCount : Fn := ⟨1,
  .ret (.un (.cast .u64) (.bin (.sub .i32) (.bin (.shl .i32) (.lit 1) (.bin (.add .u32) (.var 0) (.lit 1))) (.lit
    1)))⟩

/-- `create_tree`, vc.c:31-40; variables: 1 params, 2 depth, 3 tree, 4 lambdaBytes -/
def create_tree : Fn := ⟨3,
  block [
    .new 3 (.lit 24),
    .asg 4 (.un (.cast .u32) (.div (.div .i32) (.ld 2 (.var 1)) (.lit 8))),
    .call (some 5) Id.getBinaryTreeNodeCount [.var 2],
    .stc (.var 3) 1 (.var 5),
    .stc (.var 3) 2 (.bin (.shl .u64) (.lit 1) (.var 2)),
    .new 6 (.bin (.mul .u64) (.cell (.var 3) 1) (.var 4)),
    .stc (.var 3) 0 (.var 6),
    .stc (.var 0) 0 (.cell (.var 3) 0),
    .stc (.var 0) 1 (.cell (.var 3) 1),
    .stc (.var 0) 2 (.cell (.var 3) 2),
    .ret (.lit 0)]⟩

/-- `is_left_child`, vc.c:26-29; variables: 0 node -/
def is_left_child : Fn := ⟨1,
  block [
    .ite (.bin .ne (.var 0) (.lit 0))
      (.skip)
      (.skip),
    .ret (.bin .eq (.div (.mod .u64) (.var 0) (.lit 2)) (.lit 1))]⟩

/-- `get_parent`, vc.c:42-49; variables: 0 node -/
def get_parent : Fn := ⟨1,
  block [
    .ite (.bin .ne (.var 0) (.lit 0))
      (.skip)
      (.skip),
    .call (some 1) Id.is_left_child [.var 0],
    .ite (.var 1)
      (.ret (.div (.div .u64) (.bin (.sub .u64) (.var 0) (.lit 1)) (.lit 2)))
      (.skip),
    .ret (.div (.div .u64) (.bin (.sub .u64) (.var 0) (.lit 2)) (.lit 2))]⟩

/-- `expand_seeds`, vc.c:51-65; variables: 0 tree, 1 iv, 2 params, 3 lambda_bytes, 4 lastNonLeaf, 6 i -/
def expand_seeds : Fn := ⟨3,
  block [
    .asg 3 (.un (.cast .u32) (.div (.div .i32) (.ld 2 (.var 2)) (.lit 8))),
    .call (some 5) Id.get_parent [.bin (.sub .u64) (.cell (.var 0) 1) (.lit 1)],
    .asg 4 (.var 5),
    .ite (.bin .lt (.bin (.add .u64) (.bin (.mul .u64) (.lit 2) (.var 4)) (.lit 2)) (.cell (.var 0) 1))
      (.skip)
      (.skip),
    .asg 6 (.lit 0),
    .loop (.bin .le (.var 6) (.var 4))
      (.call none Id.prg [.padd (.cell (.var 0) 0) (.bin (.mul .u64) (.var 6) (.var 3)) 1, .var 1, .padd (.cell (.var
        0) 0) (.bin (.mul .u64) (.bin (.add .u64) (.bin (.mul .u64) (.lit 2) (.var 6)) (.lit 1)) (.var 3)) 1, .ld 2
        (.var 2), .bin (.mul .u32) (.var 3) (.lit 2)])
      (.asg 6 (.bin (.add .u64) (.var 6) (.lit 1)))]⟩

/-- `generate_seeds`, vc.c:67-76; variables: 1 rootSeed, 2 iv, 3 params, 4 depth, 5 lambdaBytes, 6 tree -/
def generate_seeds : Fn := ⟨5,
  block [
    .asg 5 (.un (.cast .u32) (.div (.div .i32) (.ld 2 (.var 3)) (.lit 8))),
    .new 6 (.lit 24),
    .call none Id.create_tree [.var 6, .var 3, .var 4],
    .call (some 7) Id.memcpy [.padd (.cell (.var 6) 0) (.bin (.mul .u32) (.lit 0) (.var 5)) 1, .var 1, .var 5],
    .call none Id.expand_seeds [.var 6, .var 2, .var 3],
    .stc (.var 0) 0 (.cell (.var 6) 0),
    .stc (.var 0) 1 (.cell (.var 6) 1),
    .stc (.var 0) 2 (.cell (.var 6) 2),
    .ret (.lit 0)]⟩

/-- `vector_commitment`, vc.c:111-164; variables: 0 rootKey, 1 iv, 2 params, 3 lambda, 4 vecCom, 5 depth, 6
  lambdaBytes, 7 numVoleInstances, 8 tree, 12 base_index, 13 i, 14 h0_ctx, 17 h0_ctx, 20 h1_ctx, 23 j -/
def vector_commitment : Fn := ⟨6,
  block [
    .asg 6 (.div (.div .u32) (.var 3) (.lit 8)),
    .asg 7 (.un (.cast .u32) (.bin (.shl .i32) (.lit 1) (.var 5))),
    .new 8 (.lit 24),
    .call none Id.generate_seeds [.var 8, .var 0, .var 1, .var 2, .var 5],
    .new 9 (.bin (.mul .u32) (.var 6) (.lit 2)),
    .stc (.var 4) 0 (.var 9),
    .new 10 (.bin (.mul .u32) (.bin (.mul .u32) (.var 7) (.var 6)) (.lit 2)),
    .stc (.var 4) 2 (.var 10),
    .new 11 (.bin (.mul .u32) (.var 7) (.var 6)),
    .stc (.var 4) 3 (.var 11),
    .stc (.var 4) 1 (.padd (.cell (.var 8) 0) (.bin (.mul .u32) (.lit 0) (.var 6)) 1),
    .asg 12 (.bin (.sub .u64) (.cell (.var 8) 1) (.cell (.var 8) 2)),
    .asg 13 (.lit 0),
    .loop (.bin .lt (.var 13) (.bin (.mul .u32) (.div (.div .u32) (.var 7) (.lit 4)) (.lit 4)))
      (block [
        .new 14 (.lit 820),
        .new 15 (.lit 812),
        .new 16 (.lit 800),
        .stc (.var 15) 0 (.var 16),
        .stc (.var 14) 0 (.var 15),
        .call none Id.H0_x4_init [.var 14, .var 3],
        .call none Id.H0_x4_update [.var 14, .padd (.cell (.var 8) 0) (.bin (.mul .u64) (.bin (.add .u64) (.var 12)
          (.var 13)) (.var 6)) 1, .padd (.cell (.var 8) 0) (.bin (.mul .u64) (.bin (.add .u64) (.bin (.add .u64)
          (.var 12) (.var 13)) (.lit 1)) (.var 6)) 1, .padd (.cell (.var 8) 0) (.bin (.mul .u64) (.bin (.add .u64)
          (.bin (.add .u64) (.var 12) (.var 13)) (.lit 2)) (.var 6)) 1, .padd (.cell (.var 8) 0) (.bin (.mul .u64)
          (.bin (.add .u64) (.bin (.add .u64) (.var 12) (.var 13)) (.lit 3)) (.var 6)) 1, .var 6],
        .call none Id.H0_x4_update [.var 14, .var 1, .var 1, .var 1, .var 1, .lit 16],
        .call none Id.H0_x4_final [.var 14, .padd (.cell (.var 4) 3) (.bin (.mul .u32) (.var 13) (.var 6)) 1, .padd
          (.cell (.var 4) 3) (.bin (.mul .u32) (.bin (.add .u32) (.var 13) (.lit 1)) (.var 6)) 1, .padd (.cell (.var
          4) 3) (.bin (.mul .u32) (.bin (.add .u32) (.var 13) (.lit 2)) (.var 6)) 1, .padd (.cell (.var 4) 3) (.bin
          (.mul .u32) (.bin (.add .u32) (.var 13) (.lit 3)) (.var 6)) 1, .var 6, .padd (.cell (.var 4) 2) (.bin (.mul
          .u32) (.bin (.mul .u32) (.var 13) (.var 6)) (.lit 2)) 1, .padd (.cell (.var 4) 2) (.bin (.mul .u32) (.bin
          (.mul .u32) (.bin (.add .u32) (.var 13) (.lit 1)) (.var 6)) (.lit 2)) 1, .padd (.cell (.var 4) 2) (.bin
          (.mul .u32) (.bin (.mul .u32) (.bin (.add .u32) (.var 13) (.lit 2)) (.var 6)) (.lit 2)) 1, .padd (.cell
          (.var 4) 2) (.bin (.mul .u32) (.bin (.mul .u32) (.bin (.add .u32) (.var 13) (.lit 3)) (.var 6)) (.lit 2))
          1, .bin (.mul .u32) (.var 6) (.lit 2)]])
      (.asg 13 (.bin (.add .u32) (.var 13) (.lit 4))),
    .loop (.bin .lt (.var 13) (.var 7))
      (block [
        .new 17 (.lit 220),
        .new 18 (.lit 212),
        .new 19 (.lit 200),
        .stc (.var 18) 0 (.var 19),
        .stc (.var 17) 0 (.var 18),
        .call none Id.H0_init [.var 17, .var 3],
        .call none Id.H0_update [.var 17, .padd (.cell (.var 8) 0) (.bin (.mul .u64) (.bin (.add .u64) (.var 12)
          (.var 13)) (.var 6)) 1, .var 6],
        .call none Id.H0_update [.var 17, .var 1, .lit 16],
        .call none Id.H0_final [.var 17, .padd (.cell (.var 4) 3) (.bin (.mul .u32) (.var 13) (.var 6)) 1, .var 6,
          .padd (.cell (.var 4) 2) (.bin (.mul .u32) (.var 13) (.bin (.mul .u32) (.var 6) (.lit 2))) 1, .bin (.mul
          .u32) (.var 6) (.lit 2)]])
      (.asg 13 (.bin (.add .u32) (.var 13) (.lit 1))),
    .stc (.var 8) 0 (.lit 0),
    .new 20 (.lit 220),
    .new 21 (.lit 212),
    .new 22 (.lit 200),
    .stc (.var 21) 0 (.var 22),
    .stc (.var 20) 0 (.var 21),
    .call none Id.H1_init [.var 20, .var 3],
    .asg 23 (.lit 0),
    .loop (.bin .lt (.var 23) (.var 7))
      (.call none Id.H1_update [.var 20, .padd (.cell (.var 4) 2) (.bin (.mul .u32) (.var 23) (.bin (.mul .u32) (.var
        6) (.lit 2))) 1, .bin (.mul .u32) (.var 6) (.lit 2)])
      (.asg 23 (.bin (.add .u32) (.var 23) (.lit 1))),
    .call none Id.H1_final [.var 20, .cell (.var 4) 0, .bin (.mul .u32) (.var 6) (.lit 2)]]⟩

/-- `NumRec`, vc.c:103-109; variables: 0 depth, 1 bi, 2 out, 3 i -/
def NumRec : Fn := ⟨2,
  block [
    .asg 2 (.lit 0),
    .asg 3 (.lit 0),
    .loop (.bin .lt (.var 3) (.var 0))
      (.asg 2 (.bin (.add .u32) (.var 2) (.bin (.shl .u32) (.ld 1 (.padd (.var 1) (.var 3) 1)) (.var 3))))
      (.asg 3 (.bin (.add .u32) (.var 3) (.lit 1))),
    .ret (.var 2)]⟩

/-- `getNodeIndex`, vc.c:84-89; variables: 0 depth, 1 levelIndex -/
def getNodeIndex : Fn := ⟨2,
  block [
    .ite (.bin .eq (.var 0) (.lit 0))
      (.ret (.lit 0))
      (.skip),
    .ret (.bin (.add .u64) (.un (.cast .u64) (.bin (.sub .i32) (.bin (.shl .i32) (.lit 2) (.bin (.sub .u64) (.var 0)
      (.lit 1))) (.lit 2))) (.bin (.add .u64) (.var 1) (.lit 1)))]⟩

/-- `vector_open`, vc.c:166-181; variables: 0 k, 1 com, 2 b, 3 cop, 4 com_j, 5 depth, 6 lambdaBytes, 7 leafIndex, 9
  a, 10 i -/
def vector_open : Fn := ⟨7,
  block [
    .call (some 8) Id.NumRec [.var 5, .var 2],
    .asg 7 (.var 8),
    .asg 9 (.lit 0),
    .asg 10 (.lit 0),
    .loop (.bin .lt (.var 10) (.var 5))
      (block [
        .call (some 11) Id.getNodeIndex [.bin (.add .u32) (.var 10) (.lit 1), .bin (.add .u32) (.bin (.mul .u32)
          (.lit 2) (.var 9)) (.un (.cast .u32) (.un .lnot (.ld 1 (.padd (.var 2) (.bin (.sub .u32) (.bin (.sub .u32)
          (.var 5) (.lit 1)) (.var 10)) 1))))],
        .call (some 12) Id.memcpy [.padd (.var 3) (.bin (.mul .u32) (.var 6) (.var 10)) 1, .padd (.var 0) (.bin (.mul
          .u64) (.var 6) (.var 11)) 1, .var 6],
        .asg 9 (.bin (.add .u32) (.bin (.mul .u32) (.lit 2) (.var 9)) (.ld 1 (.padd (.var 2) (.bin (.sub .u32) (.bin
          (.sub .u32) (.var 5) (.lit 1)) (.var 10)) 1)))])
      (.asg 10 (.bin (.add .u32) (.var 10) (.lit 1))),
    .call (some 13) Id.memcpy [.var 4, .padd (.var 1) (.bin (.mul .u64) (.bin (.mul .u64) (.var 7) (.var 6)) (.lit
      2)) 1, .bin (.mul .u32) (.var 6) (.lit 2)]]⟩

/-- `vec_com_clear`, vc.c:318-323; variables: 0 com -/
def vec_com_clear : Fn := ⟨1,
  block [
    .free (.cell (.var 0) 3),
    .free (.cell (.var 0) 2),
    .free (.cell (.var 0) 1),
    .free (.cell (.var 0) 0)]⟩

end Faest.Leak.Prog
