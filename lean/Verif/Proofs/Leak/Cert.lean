/-
Generated by tools/c2leak.py; do not edit.
Certificate for the checker of Proofs/Leak/Check.lean.
-/
import Verif.Proofs.Leak.Check
import Verif.Model.Leak.Prog.Ids

namespace Faest.Leak.Cert0

open Ty

def memset.t1 : Sig := ⟨Prog.Id.memset, [ptr 0, lo, lo, ptr 0, lo], ptr 0⟩
def KeccakP1600_Initialize.t1 : Sig := ⟨Prog.Id.KeccakP1600_Initialize, [ptr 0, ptr 0], lo⟩
def KeccakWidth1600_SpongeInitialize.t1 : Sig := ⟨Prog.Id.KeccakWidth1600_SpongeInitialize, [ptr 1, lo, lo, lo, lo],
  lo⟩
def Keccak_HashInitialize.t1 : Sig := ⟨Prog.Id.Keccak_HashInitialize, [ptr 2, lo, lo, lo, lo, lo, lo], lo⟩
def hash_init.t1 : Sig := ⟨Prog.Id.hash_init, [ptr 2, lo, lo, lo], lo⟩
def H1_init.t1 : Sig := ⟨Prog.Id.H1_init, [ptr 2, lo, lo], lo⟩
def KeccakF1600_FastLoop_Absorb.t1 : Sig := ⟨Prog.Id.KeccakF1600_FastLoop_Absorb, [ptr 0, lo, ptr 0, lo, lo, hi, hi,
  hi, hi, hi, hi, hi, hi, hi, hi, hi, hi, hi, hi, hi, hi, hi, hi, hi, hi, hi, hi, hi, hi, hi, hi, hi, hi, hi, hi, hi,
  hi, hi, hi, hi, hi, hi, hi, hi, hi, hi, hi, hi, hi, hi, hi, hi, hi, hi, hi, hi, hi, hi, hi, hi, hi, hi, hi, hi, hi,
  hi, hi, hi, hi, hi, hi, hi, hi, hi, hi, hi, hi, hi, hi, hi, hi, hi, hi, hi, hi, hi, hi, hi, hi, hi, ptr 0, ptr 0],
  lo⟩
def KeccakP1600_AddLanes.t1 : Sig := ⟨Prog.Id.KeccakP1600_AddLanes, [ptr 0, ptr 0, lo, lo], lo⟩
def memcpy.t1 : Sig := ⟨Prog.Id.memcpy, [ptr 0, ptr 0, lo, ptr 0, ptr 0, lo], ptr 0⟩
def KeccakP1600_AddBytesInLane.t1 : Sig := ⟨Prog.Id.KeccakP1600_AddBytesInLane, [ptr 0, lo, ptr 0, lo, lo, ptr 0, ptr
  0], lo⟩
def KeccakP1600_AddBytes.t1 : Sig := ⟨Prog.Id.KeccakP1600_AddBytes, [ptr 0, ptr 0, lo, lo, lo, lo, lo, ptr 0, lo], lo⟩
def KeccakP1600_Permute_24rounds.t1 : Sig := ⟨Prog.Id.KeccakP1600_Permute_24rounds, [ptr 0, hi, hi, hi, hi, hi, hi,
  hi, hi, hi, hi, hi, hi, hi, hi, hi, hi, hi, hi, hi, hi, hi, hi, hi, hi, hi, hi, hi, hi, hi, hi, hi, hi, hi, hi, hi,
  hi, hi, hi, hi, hi, hi, hi, hi, hi, hi, hi, hi, hi, hi, hi, hi, hi, hi, hi, hi, hi, hi, hi, hi, hi, hi, hi, hi, hi,
  hi, hi, hi, hi, hi, hi, hi, hi, hi, hi, hi, hi, hi, hi, hi, hi, hi, hi, hi, hi, hi, ptr 0], lo⟩
def KeccakWidth1600_SpongeAbsorb.t1 : Sig := ⟨Prog.Id.KeccakWidth1600_SpongeAbsorb, [ptr 1, ptr 0, lo, lo, lo, lo,
  ptr 0, lo, lo, lo], lo⟩
def Keccak_HashUpdate.t1 : Sig := ⟨Prog.Id.Keccak_HashUpdate, [ptr 2, ptr 0, lo, lo], lo⟩
def hash_update.t1 : Sig := ⟨Prog.Id.hash_update, [ptr 2, ptr 0, lo, lo], lo⟩
def H1_update.t1 : Sig := ⟨Prog.Id.H1_update, [ptr 2, ptr 0, lo], lo⟩
def KeccakF1600_FastLoop_Absorb.t2 : Sig := ⟨Prog.Id.KeccakF1600_FastLoop_Absorb, [ptr 0, lo, ptr 3, lo, lo, hi, hi,
  hi, hi, hi, hi, hi, hi, hi, hi, hi, hi, hi, hi, hi, hi, hi, hi, hi, hi, hi, hi, hi, hi, hi, hi, hi, hi, hi, hi, hi,
  hi, hi, hi, hi, hi, hi, hi, hi, hi, hi, hi, hi, hi, hi, hi, hi, hi, hi, hi, hi, hi, hi, hi, hi, hi, hi, hi, hi, hi,
  hi, hi, hi, hi, hi, hi, hi, hi, hi, hi, hi, hi, hi, hi, hi, hi, hi, hi, hi, hi, hi, hi, hi, hi, hi, ptr 0, ptr 3],
  lo⟩
def KeccakP1600_AddLanes.t2 : Sig := ⟨Prog.Id.KeccakP1600_AddLanes, [ptr 0, ptr 3, lo, lo], lo⟩
def memcpy.t2 : Sig := ⟨Prog.Id.memcpy, [ptr 3, ptr 3, lo, ptr 3, ptr 3, lo], ptr 3⟩
def KeccakP1600_AddBytesInLane.t2 : Sig := ⟨Prog.Id.KeccakP1600_AddBytesInLane, [ptr 0, lo, ptr 3, lo, lo, ptr 3, ptr
  3], lo⟩
def KeccakP1600_AddBytes.t2 : Sig := ⟨Prog.Id.KeccakP1600_AddBytes, [ptr 0, ptr 3, lo, lo, lo, lo, lo, ptr 3, lo], lo⟩
def KeccakWidth1600_SpongeAbsorb.t2 : Sig := ⟨Prog.Id.KeccakWidth1600_SpongeAbsorb, [ptr 1, ptr 3, lo, lo, lo, lo,
  ptr 3, lo, lo, lo], lo⟩
def Keccak_HashUpdate.t2 : Sig := ⟨Prog.Id.Keccak_HashUpdate, [ptr 2, ptr 3, lo, lo], lo⟩
def hash_update.t2 : Sig := ⟨Prog.Id.hash_update, [ptr 2, ptr 3, lo, lo], lo⟩
def KeccakWidth1600_SpongeAbsorbLastFewBits.t1 : Sig := ⟨Prog.Id.KeccakWidth1600_SpongeAbsorbLastFewBits, [ptr 1, lo,
  lo, lo], lo⟩
def KeccakP1600_ExtractLanes.t1 : Sig := ⟨Prog.Id.KeccakP1600_ExtractLanes, [ptr 0, ptr 0, lo, ptr 0], lo⟩
def KeccakP1600_ExtractBytesInLane.t1 : Sig := ⟨Prog.Id.KeccakP1600_ExtractBytesInLane, [ptr 0, lo, ptr 0, lo, lo,
  hi, ptr 0, ptr 0], lo⟩
def KeccakP1600_ExtractBytes.t1 : Sig := ⟨Prog.Id.KeccakP1600_ExtractBytes, [ptr 0, ptr 0, lo, lo, lo, lo, lo, ptr 0,
  lo], lo⟩
def KeccakWidth1600_SpongeSqueeze.t1 : Sig := ⟨Prog.Id.KeccakWidth1600_SpongeSqueeze, [ptr 1, ptr 0, lo, lo, lo, lo,
  lo, ptr 0, lo, lo], lo⟩
def Keccak_HashFinal.t1 : Sig := ⟨Prog.Id.Keccak_HashFinal, [ptr 2, ptr 0, lo, lo, lo], lo⟩
def hash_final.t1 : Sig := ⟨Prog.Id.hash_final, [ptr 2, lo], lo⟩
def Keccak_HashSqueeze.t1 : Sig := ⟨Prog.Id.Keccak_HashSqueeze, [ptr 2, ptr 0, lo, lo], lo⟩
def hash_squeeze.t1 : Sig := ⟨Prog.Id.hash_squeeze, [ptr 2, ptr 0, lo, lo], lo⟩
def H1_final.t1 : Sig := ⟨Prog.Id.H1_final, [ptr 2, ptr 0, lo], lo⟩
def hash_mu.t1 : Sig := ⟨Prog.Id.hash_mu, [ptr 0, ptr 0, ptr 0, lo, ptr 0, lo, lo, ptr 2, ptr 1, ptr 0], lo⟩
def H3_init.t1 : Sig := ⟨Prog.Id.H3_init, [ptr 2, lo, lo], lo⟩
def H3_update.t1 : Sig := ⟨Prog.Id.H3_update, [ptr 2, ptr 0, lo], lo⟩
def signature_iv.t1 : Sig := ⟨Prog.Id.signature_iv, [ptr 5, ptr 3, ptr 4], ptr 4⟩
def memcpy.t3 : Sig := ⟨Prog.Id.memcpy, [ptr 4, ptr 0, lo, ptr 4, ptr 0, lo], ptr 4⟩
def KeccakP1600_ExtractLanes.t2 : Sig := ⟨Prog.Id.KeccakP1600_ExtractLanes, [ptr 0, ptr 4, lo, ptr 4], lo⟩
def KeccakP1600_ExtractBytesInLane.t2 : Sig := ⟨Prog.Id.KeccakP1600_ExtractBytesInLane, [ptr 0, lo, ptr 4, lo, lo,
  hi, ptr 0, ptr 4], lo⟩
def KeccakP1600_ExtractBytes.t2 : Sig := ⟨Prog.Id.KeccakP1600_ExtractBytes, [ptr 0, ptr 4, lo, lo, lo, lo, lo, ptr 4,
  lo], lo⟩
def KeccakWidth1600_SpongeSqueeze.t2 : Sig := ⟨Prog.Id.KeccakWidth1600_SpongeSqueeze, [ptr 1, ptr 4, lo, lo, lo, lo,
  lo, ptr 4, lo, lo], lo⟩
def Keccak_HashSqueeze.t2 : Sig := ⟨Prog.Id.Keccak_HashSqueeze, [ptr 2, ptr 4, lo, lo], lo⟩
def hash_squeeze.t2 : Sig := ⟨Prog.Id.hash_squeeze, [ptr 2, ptr 4, lo, lo], lo⟩
def H3_final.t1 : Sig := ⟨Prog.Id.H3_final, [ptr 2, ptr 0, lo, ptr 4], lo⟩
def signature_c.t1 : Sig := ⟨Prog.Id.signature_c, [ptr 5, lo, ptr 3, ptr 0, lo, lo, lo], ptr 0⟩
def memcpy.t4 : Sig := ⟨Prog.Id.memcpy, [ptr 3, ptr 4, lo, ptr 3, ptr 4, lo], ptr 3⟩
def bf8_load.t1 : Sig := ⟨Prog.Id.bf8_load, [ptr 0], hi⟩
def rot_word.t1 : Sig := ⟨Prog.Id.rot_word, [ptr 0, hi], lo⟩
def contains_zero.t1 : Sig := ⟨Prog.Id.contains_zero, [ptr 0], hi⟩
def bf8_square.t1 : Sig := ⟨Prog.Id.bf8_square, [hi, hi, hi, lo, hi], hi⟩
def bf8_mul.t1 : Sig := ⟨Prog.Id.bf8_mul, [hi, hi, hi, lo, hi], hi⟩
def bf8_inv.t1 : Sig := ⟨Prog.Id.bf8_inv, [hi, hi, hi, hi, hi, hi, hi, hi, hi, hi, hi, hi, hi, hi, hi, hi, hi, hi,
  hi, hi, hi, hi], hi⟩
def parity8.t1 : Sig := ⟨Prog.Id.parity8, [hi], hi⟩
def compute_sbox.t1 : Sig := ⟨Prog.Id.compute_sbox, [hi, hi, hi, hi, hi, hi, hi, hi, hi, hi, hi, hi], hi⟩
def sub_words.t1 : Sig := ⟨Prog.Id.sub_words, [ptr 0, hi, hi, hi, hi], lo⟩
def expand_key.t1 : Sig := ⟨Prog.Id.expand_key, [ptr 0, ptr 0, lo, lo, lo, hi, lo, hi, hi, hi, hi, lo, ptr 0, ptr 0,
  hi, lo, hi, lo], hi⟩
def aes256_init_round_keys.t1 : Sig := ⟨Prog.Id.aes256_init_round_keys, [ptr 0, ptr 0, hi], hi⟩
def bf8_load.t2 : Sig := ⟨Prog.Id.bf8_load, [ptr 3], lo⟩
def load_state.t1 : Sig := ⟨Prog.Id.load_state, [ptr 0, ptr 3, lo, lo, lo], lo⟩
def xor_u8_array.t1 : Sig := ⟨Prog.Id.xor_u8_array, [ptr 0, ptr 0, ptr 0, lo, lo], lo⟩
def add_round_key.t1 : Sig := ⟨Prog.Id.add_round_key, [lo, ptr 0, ptr 0, lo, lo], lo⟩
def sub_bytes.t1 : Sig := ⟨Prog.Id.sub_bytes, [ptr 0, lo, hi, lo, hi, lo, hi], hi⟩
def shift_row.t1 : Sig := ⟨Prog.Id.shift_row, [ptr 0, lo, ptr 0, lo, lo, lo, lo, ptr 0], lo⟩
def bf8_mul.t2 : Sig := ⟨Prog.Id.bf8_mul, [hi, lo, hi, lo, hi], hi⟩
def mix_column.t1 : Sig := ⟨Prog.Id.mix_column, [ptr 0, lo, lo, hi, hi, hi, hi, hi, hi, hi, hi, hi, hi, hi, hi], lo⟩
def aes_encrypt.t1 : Sig := ⟨Prog.Id.aes_encrypt, [ptr 0, ptr 0, lo, lo, hi, lo, hi, hi], hi⟩
def bf8_store.t1 : Sig := ⟨Prog.Id.bf8_store, [ptr 0, hi], lo⟩
def store_state.t1 : Sig := ⟨Prog.Id.store_state, [ptr 0, ptr 0, lo, lo], lo⟩
def aes_increment_iv.t1 : Sig := ⟨Prog.Id.aes_increment_iv, [ptr 3, lo], lo⟩
def aes192_init_round_keys.t1 : Sig := ⟨Prog.Id.aes192_init_round_keys, [ptr 0, ptr 0, hi], hi⟩
def aes128_init_round_keys.t1 : Sig := ⟨Prog.Id.aes128_init_round_keys, [ptr 0, ptr 0, hi], hi⟩
def prg.t1 : Sig := ⟨Prog.Id.prg, [ptr 0, ptr 4, ptr 0, lo, lo, ptr 3, ptr 3, ptr 0, lo, hi, ptr 0, hi, ptr 0, hi,
  ptr 0, ptr 0, hi, ptr 0, hi, ptr 0, hi, ptr 0, ptr 0, hi, ptr 0, hi, ptr 0, hi, ptr 0, ptr 0], lo⟩
def getBinaryTreeNodeCount.t1 : Sig := ⟨Prog.Id.getBinaryTreeNodeCount, [lo], lo⟩
def create_tree.t1 : Sig := ⟨Prog.Id.create_tree, [ptr 6, ptr 3, lo, ptr 6, lo, lo, ptr 0], lo⟩
def is_left_child.t1 : Sig := ⟨Prog.Id.is_left_child, [lo], lo⟩
def get_parent.t1 : Sig := ⟨Prog.Id.get_parent, [lo, lo], lo⟩
def expand_seeds.t1 : Sig := ⟨Prog.Id.expand_seeds, [ptr 6, ptr 4, ptr 3, lo, lo, lo, lo], lo⟩
def generate_seeds.t1 : Sig := ⟨Prog.Id.generate_seeds, [ptr 6, ptr 0, ptr 4, ptr 3, lo, lo, ptr 6, ptr 0], lo⟩
def KeccakP1600times4_StaticInitialize.t1 : Sig := ⟨Prog.Id.KeccakP1600times4_StaticInitialize, [], lo⟩
def KeccakP1600times4_InitializeAll.t1 : Sig := ⟨Prog.Id.KeccakP1600times4_InitializeAll, [ptr 0, lo], lo⟩
def KeccakWidth1600times4_SpongeInitialize.t1 : Sig := ⟨Prog.Id.KeccakWidth1600times4_SpongeInitialize, [ptr 1, lo,
  lo, lo, lo], lo⟩
def Keccak_HashInitializetimes4.t1 : Sig := ⟨Prog.Id.Keccak_HashInitializetimes4, [ptr 2, lo, lo, lo, lo, lo, lo], lo⟩
def hash_init_x4.t1 : Sig := ⟨Prog.Id.hash_init_x4, [ptr 2, lo, lo, lo], lo⟩
def H0_x4_init.t1 : Sig := ⟨Prog.Id.H0_x4_init, [ptr 2, lo, lo], lo⟩
def KeccakP1600times4_AddBytes.t1 : Sig := ⟨Prog.Id.KeccakP1600times4_AddBytes, [ptr 0, lo, ptr 0, lo, lo], lo⟩
def KeccakP1600times4_PermuteAll_24rounds.t1 : Sig := ⟨Prog.Id.KeccakP1600times4_PermuteAll_24rounds, [ptr 0, lo], lo⟩
def KeccakWidth1600times4_SpongeAbsorb.t1 : Sig := ⟨Prog.Id.KeccakWidth1600times4_SpongeAbsorb, [ptr 1, ptr 7, lo,
  lo, lo, lo, ptr 7, lo, lo, lo, lo, lo], lo⟩
def Keccak_HashUpdatetimes4.t1 : Sig := ⟨Prog.Id.Keccak_HashUpdatetimes4, [ptr 2, ptr 7, lo, lo], lo⟩
def hash_update_x4.t1 : Sig := ⟨Prog.Id.hash_update_x4, [ptr 2, ptr 7, lo, lo], lo⟩
def hash_update_x4_4.t1 : Sig := ⟨Prog.Id.hash_update_x4_4, [ptr 2, ptr 0, ptr 0, ptr 0, ptr 0, lo, ptr 7], lo⟩
def H0_x4_update.t1 : Sig := ⟨Prog.Id.H0_x4_update, [ptr 2, ptr 0, ptr 0, ptr 0, ptr 0, lo], lo⟩
def KeccakP1600_AddLanes.t3 : Sig := ⟨Prog.Id.KeccakP1600_AddLanes, [ptr 0, ptr 4, lo, lo], lo⟩
def KeccakP1600_AddBytesInLane.t3 : Sig := ⟨Prog.Id.KeccakP1600_AddBytesInLane, [ptr 0, lo, ptr 4, lo, lo, ptr 3, ptr
  3], lo⟩
def KeccakP1600_AddBytes.t3 : Sig := ⟨Prog.Id.KeccakP1600_AddBytes, [ptr 0, ptr 4, lo, lo, lo, lo, lo, ptr 4, lo], lo⟩
def KeccakP1600times4_AddBytes.t2 : Sig := ⟨Prog.Id.KeccakP1600times4_AddBytes, [ptr 0, lo, ptr 4, lo, lo], lo⟩
def KeccakWidth1600times4_SpongeAbsorb.t2 : Sig := ⟨Prog.Id.KeccakWidth1600times4_SpongeAbsorb, [ptr 1, ptr 8, lo,
  lo, lo, lo, ptr 8, lo, lo, lo, lo, lo], lo⟩
def Keccak_HashUpdatetimes4.t2 : Sig := ⟨Prog.Id.Keccak_HashUpdatetimes4, [ptr 2, ptr 8, lo, lo], lo⟩
def hash_update_x4.t2 : Sig := ⟨Prog.Id.hash_update_x4, [ptr 2, ptr 8, lo, lo], lo⟩
def hash_update_x4_4.t2 : Sig := ⟨Prog.Id.hash_update_x4_4, [ptr 2, ptr 4, ptr 4, ptr 4, ptr 4, lo, ptr 8], lo⟩
def H0_x4_update.t2 : Sig := ⟨Prog.Id.H0_x4_update, [ptr 2, ptr 4, ptr 4, ptr 4, ptr 4, lo], lo⟩
def KeccakP1600times4_AddBytes.t3 : Sig := ⟨Prog.Id.KeccakP1600times4_AddBytes, [ptr 0, lo, ptr 3, lo, lo], lo⟩
def KeccakWidth1600times4_SpongeAbsorb.t3 : Sig := ⟨Prog.Id.KeccakWidth1600times4_SpongeAbsorb, [ptr 1, ptr 9, lo,
  lo, lo, lo, ptr 9, lo, lo, lo, lo, lo], lo⟩
def Keccak_HashUpdatetimes4.t3 : Sig := ⟨Prog.Id.Keccak_HashUpdatetimes4, [ptr 2, ptr 9, lo, lo], lo⟩
def hash_update_x4.t3 : Sig := ⟨Prog.Id.hash_update_x4, [ptr 2, ptr 9, lo, lo], lo⟩
def hash_update_x4_1.t1 : Sig := ⟨Prog.Id.hash_update_x4_1, [ptr 2, ptr 3, lo, ptr 9], lo⟩
def KeccakP1600times4_AddByte.t1 : Sig := ⟨Prog.Id.KeccakP1600times4_AddByte, [ptr 0, lo, lo, lo], lo⟩
def KeccakWidth1600times4_SpongeAbsorbLastFewBits.t1 : Sig := ⟨Prog.Id.KeccakWidth1600times4_SpongeAbsorbLastFewBits,
  [ptr 1, lo, lo, lo, lo, lo], lo⟩
def KeccakP1600times4_ExtractBytes.t1 : Sig := ⟨Prog.Id.KeccakP1600times4_ExtractBytes, [ptr 0, lo, ptr 0, lo, lo],
  lo⟩
def KeccakWidth1600times4_SpongeSqueeze.t1 : Sig := ⟨Prog.Id.KeccakWidth1600times4_SpongeSqueeze, [ptr 1, ptr 7, lo,
  lo, lo, lo, lo, ptr 7, lo, lo, lo, lo, lo], lo⟩
def Keccak_HashFinaltimes4.t1 : Sig := ⟨Prog.Id.Keccak_HashFinaltimes4, [ptr 2, ptr 7, lo, lo, lo], lo⟩
def hash_final_x4.t1 : Sig := ⟨Prog.Id.hash_final_x4, [ptr 2, lo], lo⟩
def Keccak_HashSqueezetimes4.t1 : Sig := ⟨Prog.Id.Keccak_HashSqueezetimes4, [ptr 2, ptr 7, lo, lo], lo⟩
def hash_squeeze_x4.t1 : Sig := ⟨Prog.Id.hash_squeeze_x4, [ptr 2, ptr 7, lo, lo], lo⟩
def hash_squeeze_x4_4.t1 : Sig := ⟨Prog.Id.hash_squeeze_x4_4, [ptr 2, ptr 0, ptr 0, ptr 0, ptr 0, lo, ptr 7], lo⟩
def H0_x4_final.t1 : Sig := ⟨Prog.Id.H0_x4_final, [ptr 2, ptr 0, ptr 0, ptr 0, ptr 0, lo, ptr 0, ptr 0, ptr 0, ptr 0,
  lo], lo⟩
def H0_init.t1 : Sig := ⟨Prog.Id.H0_init, [ptr 2, lo, lo], lo⟩
def H0_update.t1 : Sig := ⟨Prog.Id.H0_update, [ptr 2, ptr 0, lo], lo⟩
def KeccakF1600_FastLoop_Absorb.t3 : Sig := ⟨Prog.Id.KeccakF1600_FastLoop_Absorb, [ptr 0, lo, ptr 4, lo, lo, hi, hi,
  hi, hi, hi, hi, hi, hi, hi, hi, hi, hi, hi, hi, hi, hi, hi, hi, hi, hi, hi, hi, hi, hi, hi, hi, hi, hi, hi, hi, hi,
  hi, hi, hi, hi, hi, hi, hi, hi, hi, hi, hi, hi, hi, hi, hi, hi, hi, hi, hi, hi, hi, hi, hi, hi, hi, hi, hi, hi, hi,
  hi, hi, hi, hi, hi, hi, hi, hi, hi, hi, hi, hi, hi, hi, hi, hi, hi, hi, hi, hi, hi, hi, hi, hi, hi, ptr 0, ptr 4],
  lo⟩
def KeccakWidth1600_SpongeAbsorb.t3 : Sig := ⟨Prog.Id.KeccakWidth1600_SpongeAbsorb, [ptr 1, ptr 4, lo, lo, lo, lo,
  ptr 4, lo, lo, lo], lo⟩
def Keccak_HashUpdate.t3 : Sig := ⟨Prog.Id.Keccak_HashUpdate, [ptr 2, ptr 4, lo, lo], lo⟩
def hash_update.t3 : Sig := ⟨Prog.Id.hash_update, [ptr 2, ptr 4, lo, lo], lo⟩
def H0_update.t2 : Sig := ⟨Prog.Id.H0_update, [ptr 2, ptr 4, lo], lo⟩
def H0_final.t1 : Sig := ⟨Prog.Id.H0_final, [ptr 2, ptr 0, lo, ptr 0, lo], lo⟩
def vector_commitment.t1 : Sig := ⟨Prog.Id.vector_commitment, [ptr 0, ptr 4, ptr 3, lo, ptr 10, lo, lo, lo, ptr 6,
  ptr 0, ptr 0, ptr 0, lo, lo, ptr 2, ptr 1, ptr 0, ptr 2, ptr 1, ptr 0, ptr 2, ptr 1, ptr 0, lo], lo⟩
def ConvertToVole.t1 : Sig := ⟨Prog.Id.ConvertToVole, [ptr 4, ptr 0, lo, lo, lo, lo, ptr 0, ptr 0, lo, lo, ptr 0, ptr
  0, lo, ptr 0, lo, lo, lo, lo, ptr 0], lo⟩
def vole_commit.t1 : Sig := ⟨Prog.Id.vole_commit, [ptr 0, ptr 4, lo, ptr 3, ptr 0, ptr 10, ptr 0, ptr 0, ptr 7, lo,
  lo, lo, lo, lo, lo, lo, ptr 0, ptr 0, ptr 0, ptr 0, ptr 2, ptr 1, ptr 0, lo, lo, lo, lo, ptr 0, lo], lo⟩
def H2_init.t1 : Sig := ⟨Prog.Id.H2_init, [ptr 2, lo, lo], lo⟩
def H2_update.t1 : Sig := ⟨Prog.Id.H2_update, [ptr 2, ptr 0, lo], lo⟩
def H2_update.t2 : Sig := ⟨Prog.Id.H2_update, [ptr 2, ptr 4, lo], lo⟩
def H2_final.t1 : Sig := ⟨Prog.Id.H2_final, [ptr 2, ptr 0, lo], lo⟩
def hash_challenge_1.t1 : Sig := ⟨Prog.Id.hash_challenge_1, [ptr 0, ptr 0, ptr 0, ptr 0, ptr 4, lo, lo, lo, lo, lo,
  ptr 2, ptr 1, ptr 0], lo⟩
def signature_u_tilde.t1 : Sig := ⟨Prog.Id.signature_u_tilde, [ptr 5, ptr 3, ptr 0, lo, lo, lo], ptr 0⟩
def bf256_load.t1 : Sig := ⟨Prog.Id.bf256_load, [ptr 0, ptr 0, ptr 0], hi⟩
def bf256_bit_to_uint64_mask.t1 : Sig := ⟨Prog.Id.bf256_bit_to_uint64_mask, [hi, lo, ptr 0, lo, lo], hi⟩
def bf256_and_64.t1 : Sig := ⟨Prog.Id.bf256_and_64, [hi, hi, ptr 0, lo], hi⟩
def bf256_shift_left_1.t1 : Sig := ⟨Prog.Id.bf256_shift_left_1, [hi, ptr 0], hi⟩
def bf256_add.t1 : Sig := ⟨Prog.Id.bf256_add, [hi, hi, ptr 0, ptr 0, lo], hi⟩
def bf256_mul.t1 : Sig := ⟨Prog.Id.bf256_mul, [hi, hi, ptr 0, hi, hi, hi, lo, hi, hi, hi, hi, hi, hi], hi⟩
def bf64_load.t1 : Sig := ⟨Prog.Id.bf64_load, [ptr 0, ptr 0, ptr 0], hi⟩
def bf64_zero.t1 : Sig := ⟨Prog.Id.bf64_zero, [], lo⟩
def bf64_one.t1 : Sig := ⟨Prog.Id.bf64_one, [], lo⟩
def bf64_mul.t1 : Sig := ⟨Prog.Id.bf64_mul, [hi, hi, hi, lo, hi], hi⟩
def bf64_add.t1 : Sig := ⟨Prog.Id.bf64_add, [hi, hi], hi⟩
def compute_h1.t1 : Sig := ⟨Prog.Id.compute_h1, [ptr 0, ptr 0, lo, lo, hi, hi, lo, lo, ptr 0, ptr 0, lo, ptr 0, hi,
  lo, hi, lo, lo, hi, hi, hi, hi, hi, hi, hi, hi], hi⟩
def bf256_mul_64.t1 : Sig := ⟨Prog.Id.bf256_mul_64, [hi, hi, ptr 0, hi, hi, lo, hi, hi, hi, hi, hi], hi⟩
def bf256_store.t1 : Sig := ⟨Prog.Id.bf256_store, [ptr 0, hi, ptr 0, ptr 0], lo⟩
def vole_hash_256.t1 : Sig := ⟨Prog.Id.vole_hash_256, [ptr 0, ptr 0, ptr 0, lo, ptr 0, ptr 0, ptr 0, ptr 0, ptr 0,
  ptr 0, ptr 0, lo, ptr 0, ptr 0, lo, ptr 0, hi, hi, hi, hi, hi, lo, hi, hi, hi, hi, hi, hi, hi, hi, hi, hi, hi, hi,
  hi, hi, hi, hi, hi, hi, ptr 0], lo⟩
def bf192_load.t1 : Sig := ⟨Prog.Id.bf192_load, [ptr 0, ptr 0, ptr 0], hi⟩
def bf192_bit_to_uint64_mask.t1 : Sig := ⟨Prog.Id.bf192_bit_to_uint64_mask, [hi, lo, ptr 0, lo, lo], hi⟩
def bf192_and_64.t1 : Sig := ⟨Prog.Id.bf192_and_64, [hi, hi, ptr 0, lo], hi⟩
def bf192_shift_left_1.t1 : Sig := ⟨Prog.Id.bf192_shift_left_1, [hi, ptr 0], hi⟩
def bf192_add.t1 : Sig := ⟨Prog.Id.bf192_add, [hi, hi, ptr 0, ptr 0, lo], hi⟩
def bf192_mul.t1 : Sig := ⟨Prog.Id.bf192_mul, [hi, hi, ptr 0, hi, hi, hi, lo, hi, hi, hi, hi, hi, hi], hi⟩
def bf192_mul_64.t1 : Sig := ⟨Prog.Id.bf192_mul_64, [hi, hi, ptr 0, hi, hi, lo, hi, hi, hi, hi, hi], hi⟩
def bf192_store.t1 : Sig := ⟨Prog.Id.bf192_store, [ptr 0, hi, ptr 0, ptr 0], lo⟩
def vole_hash_192.t1 : Sig := ⟨Prog.Id.vole_hash_192, [ptr 0, ptr 0, ptr 0, lo, ptr 0, ptr 0, ptr 0, ptr 0, ptr 0,
  ptr 0, ptr 0, lo, ptr 0, ptr 0, lo, ptr 0, hi, hi, hi, hi, hi, lo, hi, hi, hi, hi, hi, hi, hi, hi, hi, hi, hi, hi,
  hi, hi, hi, hi, hi, hi, ptr 0], lo⟩
def bf128_load.t1 : Sig := ⟨Prog.Id.bf128_load, [ptr 0, ptr 0, ptr 0], hi⟩
def bf128_bit_to_uint64_mask.t1 : Sig := ⟨Prog.Id.bf128_bit_to_uint64_mask, [hi, lo, ptr 0, lo, lo], hi⟩
def bf128_and_64.t1 : Sig := ⟨Prog.Id.bf128_and_64, [hi, hi, ptr 0, lo], hi⟩
def bf128_shift_left_1.t1 : Sig := ⟨Prog.Id.bf128_shift_left_1, [hi, ptr 0], hi⟩
def bf128_add.t1 : Sig := ⟨Prog.Id.bf128_add, [hi, hi, ptr 0, ptr 0, lo], hi⟩
def bf128_mul.t1 : Sig := ⟨Prog.Id.bf128_mul, [hi, hi, ptr 0, hi, hi, hi, lo, hi, hi, hi, hi, hi, hi], hi⟩
def bf128_mul_64.t1 : Sig := ⟨Prog.Id.bf128_mul_64, [hi, hi, ptr 0, hi, hi, lo, hi, hi, hi, hi, hi], hi⟩
def bf128_store.t1 : Sig := ⟨Prog.Id.bf128_store, [ptr 0, hi, ptr 0, ptr 0], lo⟩
def vole_hash_128.t1 : Sig := ⟨Prog.Id.vole_hash_128, [ptr 0, ptr 0, ptr 0, lo, ptr 0, ptr 0, ptr 0, ptr 0, ptr 0,
  ptr 0, ptr 0, lo, ptr 0, ptr 0, lo, ptr 0, hi, hi, hi, hi, hi, lo, hi, hi, hi, hi, hi, hi, hi, hi, hi, hi, hi, hi,
  hi, hi, hi, hi, hi, hi, ptr 0], lo⟩
def vole_hash.t1 : Sig := ⟨Prog.Id.vole_hash, [ptr 0, ptr 0, ptr 0, lo, lo, lo], lo⟩
def rijndael256_init_round_keys.t1 : Sig := ⟨Prog.Id.rijndael256_init_round_keys, [ptr 0, ptr 0, hi], hi⟩
def rijndael192_init_round_keys.t1 : Sig := ⟨Prog.Id.rijndael192_init_round_keys, [ptr 0, ptr 0, hi], hi⟩
def load_state.t2 : Sig := ⟨Prog.Id.load_state, [ptr 0, ptr 0, lo, lo, hi], lo⟩
def aes_extend_witness.t1 : Sig := ⟨Prog.Id.aes_extend_witness, [ptr 0, ptr 0, ptr 3, lo, lo, lo, lo, lo, ptr 0, ptr
  0, ptr 0, lo, lo, lo, ptr 0, ptr 0, lo, hi, hi, hi, hi, hi, lo, ptr 0, lo, lo, ptr 0, lo, ptr 0, lo, ptr 0, lo,
  hi], ptr 0⟩
def signature_d.t1 : Sig := ⟨Prog.Id.signature_d, [ptr 5, ptr 3, ptr 0, lo, lo, lo, lo], ptr 0⟩
def hash_challenge_2.t1 : Sig := ⟨Prog.Id.hash_challenge_2, [ptr 0, ptr 0, ptr 0, ptr 0, ptr 0, lo, lo, lo, lo, lo,
  ptr 2, ptr 1, ptr 0], lo⟩
def signature_a_tilde.t1 : Sig := ⟨Prog.Id.signature_a_tilde, [ptr 5, ptr 3, ptr 0, lo, lo, lo, lo], ptr 0⟩
def column_to_row_major_and_shrink_V_256.t1 : Sig := ⟨Prog.Id.column_to_row_major_and_shrink_V_256, [ptr 7, lo, ptr
  0, ptr 0, lo, ptr 0, ptr 0, lo, hi], ptr 0⟩
def memset.t2 : Sig := ⟨Prog.Id.memset, [ptr 3, lo, lo, ptr 3, lo], ptr 3⟩
def bf256_zero.t1 : Sig := ⟨Prog.Id.bf256_zero, [ptr 3, ptr 3], lo⟩
def zk_hash_256_init.t1 : Sig := ⟨Prog.Id.zk_hash_256_init, [ptr 11, ptr 0, ptr 0, ptr 0, lo, lo, hi, hi], lo⟩
def aes_key_schedule_forward_1.t1 : Sig := ⟨Prog.Id.aes_key_schedule_forward_1, [ptr 0, ptr 0, ptr 3, lo, lo, lo, lo,
  lo, ptr 0, ptr 0, lo, lo, lo, lo, ptr 0, lo], lo⟩
def aes_key_schedule_forward_256.t1 : Sig := ⟨Prog.Id.aes_key_schedule_forward_256, [ptr 0, ptr 0, ptr 0, lo, lo, lo,
  ptr 0, lo, hi], lo⟩
def rotr8.t1 : Sig := ⟨Prog.Id.rotr8, [hi, lo, lo], hi⟩
def aes_key_schedule_backward_1.t1 : Sig := ⟨Prog.Id.aes_key_schedule_backward_1, [ptr 0, ptr 0, ptr 0, ptr 3, lo,
  lo, lo, lo, lo, lo, lo, hi, lo, hi, hi, hi, hi], lo⟩
def bf256_load.t2 : Sig := ⟨Prog.Id.bf256_load, [ptr 3, ptr 3, ptr 3], lo⟩
def bf256_from_bf8.t1 : Sig := ⟨Prog.Id.bf256_from_bf8, [lo, ptr 3, ptr 3], lo⟩
def bf256_from_bit.t1 : Sig := ⟨Prog.Id.bf256_from_bit, [lo, lo], lo⟩
def bf256_and_64.t2 : Sig := ⟨Prog.Id.bf256_and_64, [lo, lo, ptr 3, lo], lo⟩
def bf256_mul_bit.t1 : Sig := ⟨Prog.Id.bf256_mul_bit, [lo, lo, lo], lo⟩
def bf256_add.t2 : Sig := ⟨Prog.Id.bf256_add, [lo, lo, ptr 3, ptr 3, lo], lo⟩
def bf256_add.t3 : Sig := ⟨Prog.Id.bf256_add, [hi, lo, ptr 0, ptr 3, lo], hi⟩
def aes_key_schedule_backward_256.t1 : Sig := ⟨Prog.Id.aes_key_schedule_backward_256, [ptr 0, ptr 0, lo, lo, ptr 3,
  ptr 0, lo, lo, lo, lo, lo, lo, lo, lo, lo, lo, lo, lo, lo, lo, lo, lo, lo, lo, ptr 0, lo, hi, lo, lo, lo, ptr 3,
  lo, lo, hi, lo, hi, hi, lo, hi, lo, hi], lo⟩
def bf256_from_bf8.t2 : Sig := ⟨Prog.Id.bf256_from_bf8, [hi, ptr 0, ptr 0], hi⟩
def bf256_from_bit.t2 : Sig := ⟨Prog.Id.bf256_from_bit, [hi, hi], hi⟩
def bf256_and_64.t3 : Sig := ⟨Prog.Id.bf256_and_64, [lo, hi, ptr 0, lo], hi⟩
def bf256_mul_bit.t2 : Sig := ⟨Prog.Id.bf256_mul_bit, [lo, hi, hi], hi⟩
def bf256_byte_combine_bits.t1 : Sig := ⟨Prog.Id.bf256_byte_combine_bits, [hi, hi, hi, lo, hi, hi], hi⟩
def bf256_bit_to_uint64_mask.t2 : Sig := ⟨Prog.Id.bf256_bit_to_uint64_mask, [lo, lo, ptr 3, lo, lo], lo⟩
def bf256_and_64.t4 : Sig := ⟨Prog.Id.bf256_and_64, [hi, lo, ptr 0, lo], hi⟩
def bf256_mul.t2 : Sig := ⟨Prog.Id.bf256_mul, [hi, lo, ptr 0, hi, lo, hi, lo, hi, hi, hi, lo, hi, hi], hi⟩
def bf256_byte_combine.t1 : Sig := ⟨Prog.Id.bf256_byte_combine, [ptr 0, hi, lo, hi, hi], hi⟩
def zk_hash_256_update.t1 : Sig := ⟨Prog.Id.zk_hash_256_update, [ptr 11, hi, hi, hi, hi, hi], lo⟩
def bf256_one.t1 : Sig := ⟨Prog.Id.bf256_one, [ptr 3], lo⟩
def aes_key_schedule_constraints_Mkey_0_256.t1 : Sig := ⟨Prog.Id.aes_key_schedule_constraints_Mkey_0_256, [ptr 0, ptr
  0, ptr 11, ptr 11, ptr 0, ptr 0, ptr 3, ptr 0, ptr 0, lo, lo, lo, ptr 0, ptr 0, ptr 0, ptr 0, lo, hi, hi, hi, hi,
  hi, hi, hi, hi, lo, hi, hi, hi, hi, hi, lo, hi, hi], lo⟩
def bf256_byte_combine_bits.t2 : Sig := ⟨Prog.Id.bf256_byte_combine_bits, [lo, lo, lo, lo, lo, lo], lo⟩
def aes_enc_forward_256_1.t1 : Sig := ⟨Prog.Id.aes_enc_forward_256_1, [ptr 0, ptr 0, ptr 0, lo, lo, ptr 0, lo, hi,
  hi, hi, hi, lo, lo, lo, lo, lo, lo, lo, lo, lo, ptr 0, ptr 0, lo, hi, hi, hi, hi, hi, hi, hi, hi, hi, hi, hi, hi,
  hi, hi, hi, hi, hi, hi, hi, hi, hi, hi, hi, hi, hi, hi], lo⟩
def aes_enc_forward_256.t1 : Sig := ⟨Prog.Id.aes_enc_forward_256, [ptr 0, ptr 0, ptr 0, lo, lo, ptr 3, ptr 0, lo, lo,
  lo, lo, lo, lo, lo, lo, lo, ptr 0, lo, hi, hi, hi, hi, lo, lo, lo, lo, lo, lo, lo, lo, lo, ptr 0, ptr 0, lo, hi,
  hi, hi, hi, hi, hi, hi, hi, hi, hi, hi, hi, hi, hi, hi, hi, hi, hi, hi, hi, hi, hi, hi, hi, hi, hi], lo⟩
def aes_enc_backward_256_1.t1 : Sig := ⟨Prog.Id.aes_enc_backward_256_1, [ptr 0, ptr 0, lo, lo, ptr 0, ptr 0, hi, lo,
  lo, lo, lo, hi, hi, hi, hi, hi, hi], lo⟩
def aes_enc_backward_256.t1 : Sig := ⟨Prog.Id.aes_enc_backward_256, [ptr 0, ptr 0, lo, lo, ptr 3, ptr 0, ptr 0, lo,
  lo, lo, lo, lo, lo, lo, lo, lo, lo, lo, lo, ptr 0, lo, ptr 0, lo, hi, hi, hi, ptr 0, lo, hi, hi, hi, hi, hi], lo⟩
def aes_enc_constraints_Mkey_0_256.t1 : Sig := ⟨Prog.Id.aes_enc_constraints_Mkey_0_256, [ptr 0, ptr 0, ptr 0, ptr 0,
  ptr 0, ptr 0, ptr 11, ptr 11, ptr 0, ptr 0, ptr 0, ptr 0, lo, hi, hi, hi, hi, hi, hi, lo, hi], lo⟩
def zk_hash_256_finalize.t1 : Sig := ⟨Prog.Id.zk_hash_256_finalize, [ptr 0, ptr 11, hi, ptr 0, ptr 0, hi, hi, hi, hi,
  hi, hi], lo⟩
def bf256_dbl.t1 : Sig := ⟨Prog.Id.bf256_dbl, [hi, ptr 0, hi, hi, hi], hi⟩
def bf256_sum_poly.t1 : Sig := ⟨Prog.Id.bf256_sum_poly, [ptr 0, hi, lo, hi, hi], hi⟩
def aes_prove_256.t1 : Sig := ⟨Prog.Id.aes_prove_256, [ptr 0, ptr 0, ptr 7, ptr 0, ptr 0, ptr 0, ptr 0, ptr 0, ptr 3,
  ptr 0, ptr 0, ptr 0, ptr 0, ptr 0, ptr 0, ptr 11, ptr 11, hi, hi], lo⟩
def em_enc_forward_256_1.t1 : Sig := ⟨Prog.Id.em_enc_forward_256_1, [ptr 0, ptr 0, ptr 0, lo, hi, hi, hi, lo, lo, lo,
  lo, lo, lo, lo, lo, ptr 0, ptr 0, lo, hi, hi, hi, hi, hi, hi, hi, hi, hi, hi, hi, hi, hi, hi, hi, hi, hi, hi, hi,
  hi, hi, hi, hi, hi, hi, hi], lo⟩
def bf256_shift_left_1.t2 : Sig := ⟨Prog.Id.bf256_shift_left_1, [lo, ptr 3], lo⟩
def bf256_mul.t3 : Sig := ⟨Prog.Id.bf256_mul, [lo, lo, ptr 3, lo, lo, lo, lo, lo, lo, lo, lo, lo, lo], lo⟩
def bf256_byte_combine.t2 : Sig := ⟨Prog.Id.bf256_byte_combine, [ptr 3, lo, lo, lo, lo], lo⟩
def em_enc_forward_256.t1 : Sig := ⟨Prog.Id.em_enc_forward_256, [ptr 0, ptr 3, ptr 0, lo, hi, lo, hi, lo, lo, lo, lo,
  lo, lo, lo, lo, ptr 3, ptr 0, lo, hi, lo, lo, hi, hi, hi, hi, hi, hi, hi, hi, hi, hi, hi, hi, hi, hi, hi, hi, hi,
  hi, hi, hi, hi, hi, hi, hi], lo⟩
def em_enc_backward_256_1.t1 : Sig := ⟨Prog.Id.em_enc_backward_256_1, [ptr 0, ptr 0, ptr 0, ptr 0, lo, lo, lo, lo,
  lo, hi, hi, hi, hi, hi, hi], lo⟩
def em_enc_backward_256.t1 : Sig := ⟨Prog.Id.em_enc_backward_256, [ptr 0, ptr 3, ptr 0, lo, lo, ptr 3, ptr 0, lo, lo,
  lo, lo, lo, lo, lo, lo, lo, lo, lo, lo, ptr 0, lo, lo, ptr 0, lo, hi, ptr 0, lo, hi, hi, hi, hi, hi], lo⟩
def em_enc_constraints_Mkey_0_256.t1 : Sig := ⟨Prog.Id.em_enc_constraints_Mkey_0_256, [ptr 0, ptr 0, ptr 0, ptr 0,
  ptr 11, ptr 11, ptr 0, ptr 0, ptr 0, ptr 0, ptr 0, lo, hi, hi, hi, hi, hi, hi, lo, hi], lo⟩
def em_prove_256.t1 : Sig := ⟨Prog.Id.em_prove_256, [ptr 0, ptr 0, ptr 7, ptr 0, ptr 0, ptr 0, ptr 0, ptr 0, ptr 0,
  ptr 0, hi, ptr 0, lo, lo, ptr 0, ptr 0, ptr 0, ptr 11, ptr 11, hi, hi], lo⟩
def column_to_row_major_and_shrink_V_192.t1 : Sig := ⟨Prog.Id.column_to_row_major_and_shrink_V_192, [ptr 7, lo, ptr
  0, ptr 0, lo, ptr 0, ptr 0, lo, hi], ptr 0⟩
def bf192_zero.t1 : Sig := ⟨Prog.Id.bf192_zero, [ptr 3, ptr 3], lo⟩
def zk_hash_192_init.t1 : Sig := ⟨Prog.Id.zk_hash_192_init, [ptr 11, ptr 0, ptr 0, ptr 0, lo, lo, hi, hi], lo⟩
def aes_key_schedule_forward_192.t1 : Sig := ⟨Prog.Id.aes_key_schedule_forward_192, [ptr 0, ptr 0, ptr 0, lo, lo, lo,
  ptr 0, lo, hi], lo⟩
def bf192_load.t2 : Sig := ⟨Prog.Id.bf192_load, [ptr 3, ptr 3, ptr 3], lo⟩
def bf192_from_bf8.t1 : Sig := ⟨Prog.Id.bf192_from_bf8, [lo, ptr 3, ptr 3], lo⟩
def bf192_from_bit.t1 : Sig := ⟨Prog.Id.bf192_from_bit, [lo, lo], lo⟩
def bf192_and_64.t2 : Sig := ⟨Prog.Id.bf192_and_64, [lo, lo, ptr 3, lo], lo⟩
def bf192_mul_bit.t1 : Sig := ⟨Prog.Id.bf192_mul_bit, [lo, lo, lo], lo⟩
def bf192_add.t2 : Sig := ⟨Prog.Id.bf192_add, [lo, lo, ptr 3, ptr 3, lo], lo⟩
def bf192_add.t3 : Sig := ⟨Prog.Id.bf192_add, [hi, lo, ptr 0, ptr 3, lo], hi⟩
def aes_key_schedule_backward_192.t1 : Sig := ⟨Prog.Id.aes_key_schedule_backward_192, [ptr 0, ptr 0, lo, lo, ptr 3,
  ptr 0, lo, lo, lo, lo, lo, lo, lo, lo, lo, lo, lo, lo, lo, lo, lo, lo, lo, ptr 0, lo, hi, lo, lo, ptr 3, lo, lo,
  hi, lo, hi, hi, lo, hi, lo, hi], lo⟩
def bf192_from_bf8.t2 : Sig := ⟨Prog.Id.bf192_from_bf8, [hi, ptr 0, ptr 0], hi⟩
def bf192_from_bit.t2 : Sig := ⟨Prog.Id.bf192_from_bit, [hi, hi], hi⟩
def bf192_and_64.t3 : Sig := ⟨Prog.Id.bf192_and_64, [lo, hi, ptr 0, lo], hi⟩
def bf192_mul_bit.t2 : Sig := ⟨Prog.Id.bf192_mul_bit, [lo, hi, hi], hi⟩
def bf192_byte_combine_bits.t1 : Sig := ⟨Prog.Id.bf192_byte_combine_bits, [hi, hi, hi, lo, hi, hi], hi⟩
def bf192_bit_to_uint64_mask.t2 : Sig := ⟨Prog.Id.bf192_bit_to_uint64_mask, [lo, lo, ptr 3, lo, lo], lo⟩
def bf192_and_64.t4 : Sig := ⟨Prog.Id.bf192_and_64, [hi, lo, ptr 0, lo], hi⟩
def bf192_mul.t2 : Sig := ⟨Prog.Id.bf192_mul, [hi, lo, ptr 0, hi, lo, hi, lo, hi, hi, hi, lo, hi, hi], hi⟩
def bf192_byte_combine.t1 : Sig := ⟨Prog.Id.bf192_byte_combine, [ptr 0, hi, lo, hi, hi], hi⟩
def zk_hash_192_update.t1 : Sig := ⟨Prog.Id.zk_hash_192_update, [ptr 11, hi, hi, hi, hi, hi], lo⟩
def bf192_one.t1 : Sig := ⟨Prog.Id.bf192_one, [ptr 3], lo⟩
def aes_key_schedule_constraints_Mkey_0_192.t1 : Sig := ⟨Prog.Id.aes_key_schedule_constraints_Mkey_0_192, [ptr 0, ptr
  0, ptr 11, ptr 11, ptr 0, ptr 0, ptr 3, ptr 0, ptr 0, lo, lo, ptr 0, ptr 0, ptr 0, ptr 0, lo, hi, hi, hi, hi, lo,
  hi, hi, hi, hi, hi, lo, hi, hi], lo⟩
def bf192_byte_combine_bits.t2 : Sig := ⟨Prog.Id.bf192_byte_combine_bits, [lo, lo, lo, lo, lo, lo], lo⟩
def aes_enc_forward_192_1.t1 : Sig := ⟨Prog.Id.aes_enc_forward_192_1, [ptr 0, ptr 0, ptr 0, lo, lo, ptr 0, lo, hi,
  hi, hi, hi, lo, lo, lo, lo, lo, lo, lo, lo, lo, ptr 0, ptr 0, lo, hi, hi, hi, hi, hi, hi, hi, hi, hi, hi, hi, hi,
  hi, hi, hi, hi, hi, hi, hi, hi, hi, hi, hi, hi, hi, hi], lo⟩
def aes_enc_forward_192.t1 : Sig := ⟨Prog.Id.aes_enc_forward_192, [ptr 0, ptr 0, ptr 0, lo, lo, ptr 3, ptr 0, lo, lo,
  lo, lo, lo, lo, lo, lo, lo, ptr 0, lo, hi, hi, hi, hi, lo, lo, lo, lo, lo, lo, lo, lo, lo, ptr 0, ptr 0, lo, hi,
  hi, hi, hi, hi, hi, hi, hi, hi, hi, hi, hi, hi, hi, hi, hi, hi, hi, hi, hi, hi, hi, hi, hi, hi, hi], lo⟩
def aes_enc_backward_192_1.t1 : Sig := ⟨Prog.Id.aes_enc_backward_192_1, [ptr 0, ptr 0, lo, lo, ptr 0, ptr 0, hi, lo,
  lo, lo, lo, hi, hi, hi, hi, hi, hi], lo⟩
def aes_enc_backward_192.t1 : Sig := ⟨Prog.Id.aes_enc_backward_192, [ptr 0, ptr 0, lo, lo, ptr 3, ptr 0, ptr 0, lo,
  lo, lo, lo, lo, lo, lo, lo, lo, lo, lo, lo, ptr 0, lo, ptr 0, lo, hi, hi, hi, ptr 0, lo, hi, hi, hi, hi, hi], lo⟩
def aes_enc_constraints_Mkey_0_192.t1 : Sig := ⟨Prog.Id.aes_enc_constraints_Mkey_0_192, [ptr 0, ptr 0, ptr 0, ptr 0,
  ptr 0, ptr 0, ptr 11, ptr 11, ptr 0, ptr 0, ptr 0, ptr 0, lo, hi, hi, hi, hi, hi, hi, lo, hi], lo⟩
def zk_hash_192_finalize.t1 : Sig := ⟨Prog.Id.zk_hash_192_finalize, [ptr 0, ptr 11, hi, ptr 0, ptr 0, hi, hi, hi, hi,
  hi, hi], lo⟩
def bf192_dbl.t1 : Sig := ⟨Prog.Id.bf192_dbl, [hi, ptr 0, hi, hi, hi], hi⟩
def bf192_sum_poly.t1 : Sig := ⟨Prog.Id.bf192_sum_poly, [ptr 0, hi, lo, hi, hi], hi⟩
def aes_prove_192.t1 : Sig := ⟨Prog.Id.aes_prove_192, [ptr 0, ptr 0, ptr 7, ptr 0, ptr 0, ptr 0, ptr 0, ptr 0, ptr 3,
  ptr 0, ptr 0, ptr 0, ptr 0, ptr 0, ptr 0, ptr 11, ptr 11, hi, hi], lo⟩
def em_enc_forward_192_1.t1 : Sig := ⟨Prog.Id.em_enc_forward_192_1, [ptr 0, ptr 0, ptr 0, lo, hi, hi, hi, lo, lo, lo,
  lo, lo, lo, lo, lo, ptr 0, ptr 0, lo, hi, hi, hi, hi, hi, hi, hi, hi, hi, hi, hi, hi, hi, hi, hi, hi, hi, hi, hi,
  hi, hi, hi, hi, hi, hi, hi], lo⟩
def bf192_shift_left_1.t2 : Sig := ⟨Prog.Id.bf192_shift_left_1, [lo, ptr 3], lo⟩
def bf192_mul.t3 : Sig := ⟨Prog.Id.bf192_mul, [lo, lo, ptr 3, lo, lo, lo, lo, lo, lo, lo, lo, lo, lo], lo⟩
def bf192_byte_combine.t2 : Sig := ⟨Prog.Id.bf192_byte_combine, [ptr 3, lo, lo, lo, lo], lo⟩
def em_enc_forward_192.t1 : Sig := ⟨Prog.Id.em_enc_forward_192, [ptr 0, ptr 3, ptr 0, lo, hi, lo, hi, lo, lo, lo, lo,
  lo, lo, lo, lo, ptr 3, ptr 0, lo, hi, lo, lo, hi, hi, hi, hi, hi, hi, hi, hi, hi, hi, hi, hi, hi, hi, hi, hi, hi,
  hi, hi, hi, hi, hi, hi, hi], lo⟩
def em_enc_backward_192_1.t1 : Sig := ⟨Prog.Id.em_enc_backward_192_1, [ptr 0, ptr 0, ptr 0, ptr 0, lo, lo, lo, lo,
  lo, hi, hi, hi, hi, hi, hi], lo⟩
def em_enc_backward_192.t1 : Sig := ⟨Prog.Id.em_enc_backward_192, [ptr 0, ptr 3, ptr 0, lo, lo, ptr 3, ptr 0, lo, lo,
  lo, lo, lo, lo, lo, lo, lo, lo, lo, lo, ptr 0, lo, lo, ptr 0, lo, hi, ptr 0, lo, hi, hi, hi, hi, hi], lo⟩
def em_enc_constraints_Mkey_0_192.t1 : Sig := ⟨Prog.Id.em_enc_constraints_Mkey_0_192, [ptr 0, ptr 0, ptr 0, ptr 0,
  ptr 11, ptr 11, ptr 0, ptr 0, ptr 0, ptr 0, ptr 0, lo, hi, hi, hi, hi, hi, hi, lo, hi], lo⟩
def em_prove_192.t1 : Sig := ⟨Prog.Id.em_prove_192, [ptr 0, ptr 0, ptr 7, ptr 0, ptr 0, ptr 0, ptr 0, ptr 0, ptr 0,
  ptr 0, hi, ptr 0, lo, lo, ptr 0, ptr 0, ptr 0, ptr 11, ptr 11, hi, hi], lo⟩
def column_to_row_major_and_shrink_V_128.t1 : Sig := ⟨Prog.Id.column_to_row_major_and_shrink_V_128, [ptr 7, lo, ptr
  0, ptr 0, lo, ptr 0, ptr 0, lo, hi], ptr 0⟩
def bf128_zero.t1 : Sig := ⟨Prog.Id.bf128_zero, [ptr 3, ptr 3], lo⟩
def zk_hash_128_init.t1 : Sig := ⟨Prog.Id.zk_hash_128_init, [ptr 11, ptr 0, ptr 0, ptr 0, lo, lo, hi, hi], lo⟩
def aes_key_schedule_forward_128.t1 : Sig := ⟨Prog.Id.aes_key_schedule_forward_128, [ptr 0, ptr 0, ptr 0, lo, lo, lo,
  ptr 0, lo, hi], lo⟩
def bf128_load.t2 : Sig := ⟨Prog.Id.bf128_load, [ptr 3, ptr 3, ptr 3], lo⟩
def bf128_from_bf8.t1 : Sig := ⟨Prog.Id.bf128_from_bf8, [lo, ptr 3, ptr 3], lo⟩
def bf128_from_bit.t1 : Sig := ⟨Prog.Id.bf128_from_bit, [lo, lo], lo⟩
def bf128_and_64.t2 : Sig := ⟨Prog.Id.bf128_and_64, [lo, lo, ptr 3, lo], lo⟩
def bf128_mul_bit.t1 : Sig := ⟨Prog.Id.bf128_mul_bit, [lo, lo, lo], lo⟩
def bf128_add.t2 : Sig := ⟨Prog.Id.bf128_add, [lo, lo, ptr 3, ptr 3, lo], lo⟩
def bf128_add.t3 : Sig := ⟨Prog.Id.bf128_add, [hi, lo, ptr 0, ptr 3, lo], hi⟩
def aes_key_schedule_backward_128.t1 : Sig := ⟨Prog.Id.aes_key_schedule_backward_128, [ptr 0, ptr 0, lo, lo, ptr 3,
  ptr 0, lo, lo, lo, lo, lo, lo, lo, lo, lo, lo, lo, lo, lo, lo, lo, lo, lo, ptr 0, lo, hi, lo, lo, ptr 3, lo, lo,
  hi, lo, hi, hi, lo, hi, lo, hi], lo⟩
def bf128_from_bf8.t2 : Sig := ⟨Prog.Id.bf128_from_bf8, [hi, ptr 0, ptr 0], hi⟩
def bf128_from_bit.t2 : Sig := ⟨Prog.Id.bf128_from_bit, [hi, hi], hi⟩
def bf128_and_64.t3 : Sig := ⟨Prog.Id.bf128_and_64, [lo, hi, ptr 0, lo], hi⟩
def bf128_mul_bit.t2 : Sig := ⟨Prog.Id.bf128_mul_bit, [lo, hi, hi], hi⟩
def bf128_byte_combine_bits.t1 : Sig := ⟨Prog.Id.bf128_byte_combine_bits, [hi, hi, hi, lo, hi, hi], hi⟩
def bf128_bit_to_uint64_mask.t2 : Sig := ⟨Prog.Id.bf128_bit_to_uint64_mask, [lo, lo, ptr 3, lo, lo], lo⟩
def bf128_and_64.t4 : Sig := ⟨Prog.Id.bf128_and_64, [hi, lo, ptr 0, lo], hi⟩
def bf128_mul.t2 : Sig := ⟨Prog.Id.bf128_mul, [hi, lo, ptr 0, hi, lo, hi, lo, hi, hi, hi, lo, hi, hi], hi⟩
def bf128_byte_combine.t1 : Sig := ⟨Prog.Id.bf128_byte_combine, [ptr 0, hi, lo, hi, hi], hi⟩
def zk_hash_128_update.t1 : Sig := ⟨Prog.Id.zk_hash_128_update, [ptr 11, hi, hi, hi, hi, hi], lo⟩
def bf128_one.t1 : Sig := ⟨Prog.Id.bf128_one, [ptr 3], lo⟩
def aes_key_schedule_constraints_Mkey_0_128.t1 : Sig := ⟨Prog.Id.aes_key_schedule_constraints_Mkey_0_128, [ptr 0, ptr
  0, ptr 11, ptr 11, ptr 0, ptr 0, ptr 3, ptr 0, ptr 0, lo, lo, ptr 0, ptr 0, ptr 0, ptr 0, lo, hi, hi, hi, hi, lo,
  hi, hi, hi, hi, hi, lo, hi, hi], lo⟩
def bf128_byte_combine_bits.t2 : Sig := ⟨Prog.Id.bf128_byte_combine_bits, [lo, lo, lo, lo, lo, lo], lo⟩
def aes_enc_forward_128_1.t1 : Sig := ⟨Prog.Id.aes_enc_forward_128_1, [ptr 0, ptr 0, ptr 0, ptr 0, lo, hi, hi, hi,
  hi, lo, lo, lo, lo, lo, lo, lo, lo, lo, ptr 0, ptr 0, lo, hi, hi, hi, hi, hi, hi, hi, hi, hi, hi, hi, hi, hi, hi,
  hi, hi, hi, hi, hi, hi, hi, hi, hi, hi, hi, hi], lo⟩
def aes_enc_forward_128.t1 : Sig := ⟨Prog.Id.aes_enc_forward_128, [ptr 0, ptr 0, ptr 0, lo, lo, ptr 3, ptr 0, lo, lo,
  lo, lo, lo, lo, lo, lo, lo, ptr 0, lo, hi, hi, hi, hi, lo, lo, lo, lo, lo, lo, lo, lo, lo, ptr 0, ptr 0, lo, hi,
  hi, hi, hi, hi, hi, hi, hi, hi, hi, hi, hi, hi, hi, hi, hi, hi, hi, hi, hi, hi, hi, hi, hi, hi, hi], lo⟩
def aes_enc_backward_128_1.t1 : Sig := ⟨Prog.Id.aes_enc_backward_128_1, [ptr 0, ptr 0, ptr 0, ptr 0, hi, lo, lo, lo,
  lo, hi, hi, hi, hi, hi, hi], lo⟩
def aes_enc_backward_128.t1 : Sig := ⟨Prog.Id.aes_enc_backward_128, [ptr 0, ptr 0, lo, lo, ptr 3, ptr 0, ptr 0, lo,
  lo, lo, lo, lo, lo, lo, lo, lo, lo, lo, lo, ptr 0, lo, ptr 0, lo, hi, hi, hi, ptr 0, lo, hi, hi, hi, hi, hi], lo⟩
def aes_enc_constraints_Mkey_0_128.t1 : Sig := ⟨Prog.Id.aes_enc_constraints_Mkey_0_128, [ptr 0, ptr 0, ptr 0, ptr 0,
  ptr 0, ptr 0, ptr 11, ptr 11, ptr 0, ptr 0, ptr 0, ptr 0, lo, hi, hi, hi, hi, hi, hi, lo, hi], lo⟩
def zk_hash_128_finalize.t1 : Sig := ⟨Prog.Id.zk_hash_128_finalize, [ptr 0, ptr 11, hi, ptr 0, ptr 0, hi, hi, hi, hi,
  hi, hi], lo⟩
def bf128_dbl.t1 : Sig := ⟨Prog.Id.bf128_dbl, [hi, ptr 0, hi, hi, hi], hi⟩
def bf128_sum_poly.t1 : Sig := ⟨Prog.Id.bf128_sum_poly, [ptr 0, hi, lo, hi, hi], hi⟩
def aes_prove_128.t1 : Sig := ⟨Prog.Id.aes_prove_128, [ptr 0, ptr 0, ptr 7, ptr 0, ptr 0, ptr 0, ptr 0, ptr 0, ptr 3,
  ptr 0, ptr 0, ptr 0, ptr 0, ptr 0, ptr 0, ptr 11, ptr 11, hi, hi], lo⟩
def em_enc_forward_128_1.t1 : Sig := ⟨Prog.Id.em_enc_forward_128_1, [ptr 0, ptr 0, ptr 0, lo, hi, hi, hi, lo, lo, lo,
  lo, lo, lo, lo, lo, ptr 0, ptr 0, lo, hi, hi, hi, hi, hi, hi, hi, hi, hi, hi, hi, hi, hi, hi, hi, hi, hi, hi, hi,
  hi, hi, hi, hi, hi, hi, hi], lo⟩
def bf128_shift_left_1.t2 : Sig := ⟨Prog.Id.bf128_shift_left_1, [lo, ptr 3], lo⟩
def bf128_mul.t3 : Sig := ⟨Prog.Id.bf128_mul, [lo, lo, ptr 3, lo, lo, lo, lo, lo, lo, lo, lo, lo, lo], lo⟩
def bf128_byte_combine.t2 : Sig := ⟨Prog.Id.bf128_byte_combine, [ptr 3, lo, lo, lo, lo], lo⟩
def em_enc_forward_128.t1 : Sig := ⟨Prog.Id.em_enc_forward_128, [ptr 0, ptr 3, ptr 0, lo, hi, lo, hi, lo, lo, lo, lo,
  lo, lo, lo, lo, ptr 3, ptr 0, lo, hi, lo, lo, hi, hi, hi, hi, hi, hi, hi, hi, hi, hi, hi, hi, hi, hi, hi, hi, hi,
  hi, hi, hi, hi, hi, hi, hi], lo⟩
def em_enc_backward_128_1.t1 : Sig := ⟨Prog.Id.em_enc_backward_128_1, [ptr 0, ptr 0, ptr 0, ptr 0, lo, lo, lo, lo,
  lo, hi, hi, hi, hi, hi, hi], lo⟩
def em_enc_backward_128.t1 : Sig := ⟨Prog.Id.em_enc_backward_128, [ptr 0, ptr 3, ptr 0, lo, lo, ptr 3, ptr 0, lo, lo,
  lo, lo, lo, lo, lo, lo, lo, lo, lo, lo, ptr 0, lo, lo, ptr 0, lo, hi, ptr 0, lo, hi, hi, hi, hi, hi], lo⟩
def em_enc_constraints_Mkey_0_128.t1 : Sig := ⟨Prog.Id.em_enc_constraints_Mkey_0_128, [ptr 0, ptr 0, ptr 0, ptr 0,
  ptr 11, ptr 11, ptr 0, ptr 0, ptr 0, ptr 0, ptr 0, lo, hi, hi, hi, hi, hi, hi, lo, hi], lo⟩
def em_prove_128.t1 : Sig := ⟨Prog.Id.em_prove_128, [ptr 0, ptr 0, ptr 7, ptr 0, ptr 0, ptr 0, ptr 0, ptr 0, ptr 0,
  ptr 0, hi, ptr 0, lo, lo, ptr 0, ptr 0, ptr 0, ptr 11, ptr 11, hi, hi], lo⟩
def aes_prove.t1 : Sig := ⟨Prog.Id.aes_prove, [ptr 0, ptr 0, ptr 7, ptr 0, ptr 0, ptr 0, ptr 0, ptr 0, ptr 3, lo], lo⟩
def signature_chall_3.t1 : Sig := ⟨Prog.Id.signature_chall_3, [ptr 5, ptr 3, ptr 4, lo], ptr 4⟩
def H2_final.t2 : Sig := ⟨Prog.Id.H2_final, [ptr 2, ptr 4, lo], lo⟩
def hash_challenge_3.t1 : Sig := ⟨Prog.Id.hash_challenge_3, [ptr 4, ptr 0, ptr 0, ptr 0, lo, lo, ptr 2, ptr 1, ptr
  0], lo⟩
def ChalDec.t1 : Sig := ⟨Prog.Id.ChalDec, [ptr 4, lo, lo, lo, lo, lo, ptr 3, lo, lo, lo, lo, lo], lo⟩
def signature_pdec.t1 : Sig := ⟨Prog.Id.signature_pdec, [ptr 5, lo, ptr 3, ptr 0, lo, lo, lo, lo, lo], ptr 0⟩
def signature_com.t1 : Sig := ⟨Prog.Id.signature_com, [ptr 5, lo, ptr 3, ptr 0, lo, lo, lo, lo, lo], ptr 0⟩
def NumRec.t1 : Sig := ⟨Prog.Id.NumRec, [lo, ptr 3, lo, lo], lo⟩
def getNodeIndex.t1 : Sig := ⟨Prog.Id.getNodeIndex, [lo, lo], lo⟩
def vector_open.t1 : Sig := ⟨Prog.Id.vector_open, [ptr 0, ptr 0, ptr 3, ptr 0, ptr 0, lo, lo, lo, lo, lo, lo, lo, ptr
  0, ptr 0], lo⟩
def vec_com_clear.t1 : Sig := ⟨Prog.Id.vec_com_clear, [ptr 10], lo⟩
def faest_sign.t1 : Sig := ⟨Prog.Id.faest_sign, [ptr 5, ptr 0, lo, ptr 0, ptr 0, ptr 0, ptr 0, lo, ptr 3, lo, lo, lo,
  lo, lo, lo, lo, lo, ptr 0, ptr 0, ptr 2, ptr 1, ptr 0, lo, ptr 4, ptr 0, ptr 10, ptr 10, ptr 0, ptr 0, ptr 7, ptr
  7, ptr 0, lo, ptr 4, ptr 0, ptr 0, ptr 0, ptr 4, ptr 0, ptr 0, ptr 2, ptr 1, ptr 0, ptr 0, lo, ptr 0, ptr 0, ptr 0,
  ptr 0, ptr 0, ptr 0, ptr 0, ptr 0, ptr 4, ptr 0, lo, ptr 3, ptr 4, lo, lo, lo, ptr 0, ptr 0], lo⟩
def rand_bytes.t1 : Sig := ⟨Prog.Id.rand_bytes, [ptr 0, lo, lo], lo⟩
def aes128_encrypt_block.t1 : Sig := ⟨Prog.Id.aes128_encrypt_block, [ptr 0, ptr 0, ptr 0, ptr 0, hi, hi], hi⟩
def owf_128.t1 : Sig := ⟨Prog.Id.owf_128, [ptr 0, ptr 0, ptr 0, ptr 0, hi, hi, hi], hi⟩
def faest_128s_keygen.t1 : Sig := ⟨Prog.Id.faest_128s_keygen, [ptr 0, ptr 0, lo, lo, lo, hi, lo, ptr 0], lo⟩
def faest_get_paramset.t1 : Sig := ⟨Prog.Id.faest_get_paramset, [lo, lo, ptr 3, ptr 3, ptr 3, ptr 3, ptr 3, ptr 3,
  ptr 3, ptr 3, ptr 3, ptr 3, ptr 3, ptr 3, ptr 3, ptr 3, ptr 3, ptr 3, ptr 3, ptr 3, ptr 3, ptr 3, ptr 3, ptr 3, ptr
  3, ptr 3, ptr 3, ptr 3], lo⟩
def faest_128s_sign_with_randomness.t1 : Sig := ⟨Prog.Id.faest_128s_sign_with_randomness, [ptr 0, ptr 0, lo, ptr 0,
  lo, ptr 5, ptr 3, lo, lo, lo, lo, lo, ptr 0, hi, lo, ptr 3, lo], lo⟩
def faest_128s_sign.t1 : Sig := ⟨Prog.Id.faest_128s_sign, [ptr 0, ptr 0, lo, ptr 5, ptr 3, lo, lo, lo, ptr 0, lo,
  lo], lo⟩
def faest_timingsafe_bcmp.t1 : Sig := ⟨Prog.Id.faest_timingsafe_bcmp, [ptr 0, ptr 0, lo, ptr 0, ptr 0, hi], hi⟩
def faest_128s_validate_keypair.t1 : Sig := ⟨Prog.Id.faest_128s_validate_keypair, [ptr 0, ptr 0, lo, ptr 0, hi, lo,
  ptr 0, hi, lo, lo], lo⟩
def faest_128f_keygen.t1 : Sig := ⟨Prog.Id.faest_128f_keygen, [ptr 0, ptr 0, lo, lo, lo, hi, lo, ptr 0], lo⟩
def faest_128f_sign_with_randomness.t1 : Sig := ⟨Prog.Id.faest_128f_sign_with_randomness, [ptr 0, ptr 0, lo, ptr 0,
  lo, ptr 5, ptr 3, lo, lo, lo, lo, lo, ptr 0, hi, lo, ptr 3, lo], lo⟩
def faest_128f_sign.t1 : Sig := ⟨Prog.Id.faest_128f_sign, [ptr 0, ptr 0, lo, ptr 5, ptr 3, lo, lo, lo, ptr 0, lo,
  lo], lo⟩
def faest_128f_validate_keypair.t1 : Sig := ⟨Prog.Id.faest_128f_validate_keypair, [ptr 0, ptr 0, lo, ptr 0, hi, lo,
  ptr 0, hi, lo, lo], lo⟩
def owf_em_128.t1 : Sig := ⟨Prog.Id.owf_em_128, [ptr 0, ptr 0, ptr 0, ptr 0, hi, hi, hi, lo], hi⟩
def faest_em_128s_keygen.t1 : Sig := ⟨Prog.Id.faest_em_128s_keygen, [ptr 0, ptr 0, lo, lo, lo, hi, lo, ptr 0], lo⟩
def faest_em_128s_sign_with_randomness.t1 : Sig := ⟨Prog.Id.faest_em_128s_sign_with_randomness, [ptr 0, ptr 0, lo,
  ptr 0, lo, ptr 5, ptr 3, lo, lo, lo, lo, lo, ptr 0, hi, lo, ptr 3, lo], lo⟩
def faest_em_128s_sign.t1 : Sig := ⟨Prog.Id.faest_em_128s_sign, [ptr 0, ptr 0, lo, ptr 5, ptr 3, lo, lo, lo, ptr 0,
  lo, lo], lo⟩
def faest_em_128s_validate_keypair.t1 : Sig := ⟨Prog.Id.faest_em_128s_validate_keypair, [ptr 0, ptr 0, lo, ptr 0, hi,
  lo, ptr 0, hi, lo, lo], lo⟩
def faest_em_128f_keygen.t1 : Sig := ⟨Prog.Id.faest_em_128f_keygen, [ptr 0, ptr 0, lo, lo, lo, hi, lo, ptr 0], lo⟩
def faest_em_128f_sign_with_randomness.t1 : Sig := ⟨Prog.Id.faest_em_128f_sign_with_randomness, [ptr 0, ptr 0, lo,
  ptr 0, lo, ptr 5, ptr 3, lo, lo, lo, lo, lo, ptr 0, hi, lo, ptr 3, lo], lo⟩
def faest_em_128f_sign.t1 : Sig := ⟨Prog.Id.faest_em_128f_sign, [ptr 0, ptr 0, lo, ptr 5, ptr 3, lo, lo, lo, ptr 0,
  lo, lo], lo⟩
def faest_em_128f_validate_keypair.t1 : Sig := ⟨Prog.Id.faest_em_128f_validate_keypair, [ptr 0, ptr 0, lo, ptr 0, hi,
  lo, ptr 0, hi, lo, lo], lo⟩
def aes192_encrypt_block.t1 : Sig := ⟨Prog.Id.aes192_encrypt_block, [ptr 0, ptr 0, ptr 0, ptr 0, hi, hi], hi⟩
def owf_192.t1 : Sig := ⟨Prog.Id.owf_192, [ptr 0, ptr 0, ptr 0, ptr 0, hi, hi, hi, hi], hi⟩
def faest_192s_keygen.t1 : Sig := ⟨Prog.Id.faest_192s_keygen, [ptr 0, ptr 0, lo, lo, lo, hi, lo, ptr 0], lo⟩
def faest_192s_sign_with_randomness.t1 : Sig := ⟨Prog.Id.faest_192s_sign_with_randomness, [ptr 0, ptr 0, lo, ptr 0,
  lo, ptr 5, ptr 3, lo, lo, lo, lo, lo, ptr 0, hi, lo, ptr 3, lo], lo⟩
def faest_192s_sign.t1 : Sig := ⟨Prog.Id.faest_192s_sign, [ptr 0, ptr 0, lo, ptr 5, ptr 3, lo, lo, lo, ptr 0, lo,
  lo], lo⟩
def faest_192s_validate_keypair.t1 : Sig := ⟨Prog.Id.faest_192s_validate_keypair, [ptr 0, ptr 0, lo, ptr 0, hi, lo,
  ptr 0, hi, lo, lo], lo⟩
def faest_192f_keygen.t1 : Sig := ⟨Prog.Id.faest_192f_keygen, [ptr 0, ptr 0, lo, lo, lo, hi, lo, ptr 0], lo⟩
def faest_192f_sign_with_randomness.t1 : Sig := ⟨Prog.Id.faest_192f_sign_with_randomness, [ptr 0, ptr 0, lo, ptr 0,
  lo, ptr 5, ptr 3, lo, lo, lo, lo, lo, ptr 0, hi, lo, ptr 3, lo], lo⟩
def faest_192f_sign.t1 : Sig := ⟨Prog.Id.faest_192f_sign, [ptr 0, ptr 0, lo, ptr 5, ptr 3, lo, lo, lo, ptr 0, lo,
  lo], lo⟩
def faest_192f_validate_keypair.t1 : Sig := ⟨Prog.Id.faest_192f_validate_keypair, [ptr 0, ptr 0, lo, ptr 0, hi, lo,
  ptr 0, hi, lo, lo], lo⟩
def rijndael192_encrypt_block.t1 : Sig := ⟨Prog.Id.rijndael192_encrypt_block, [ptr 0, ptr 0, ptr 0, ptr 0, hi, hi],
  hi⟩
def owf_em_192.t1 : Sig := ⟨Prog.Id.owf_em_192, [ptr 0, ptr 0, ptr 0, ptr 0, hi, hi, hi, lo], hi⟩
def faest_em_192s_keygen.t1 : Sig := ⟨Prog.Id.faest_em_192s_keygen, [ptr 0, ptr 0, lo, lo, lo, hi, lo, ptr 0], lo⟩
def faest_em_192s_sign_with_randomness.t1 : Sig := ⟨Prog.Id.faest_em_192s_sign_with_randomness, [ptr 0, ptr 0, lo,
  ptr 0, lo, ptr 5, ptr 3, lo, lo, lo, lo, lo, ptr 0, hi, lo, ptr 3, lo], lo⟩
def faest_em_192s_sign.t1 : Sig := ⟨Prog.Id.faest_em_192s_sign, [ptr 0, ptr 0, lo, ptr 5, ptr 3, lo, lo, lo, ptr 0,
  lo, lo], lo⟩
def faest_em_192s_validate_keypair.t1 : Sig := ⟨Prog.Id.faest_em_192s_validate_keypair, [ptr 0, ptr 0, lo, ptr 0, hi,
  lo, ptr 0, hi, lo, lo], lo⟩
def faest_em_192f_keygen.t1 : Sig := ⟨Prog.Id.faest_em_192f_keygen, [ptr 0, ptr 0, lo, lo, lo, hi, lo, ptr 0], lo⟩
def faest_em_192f_sign_with_randomness.t1 : Sig := ⟨Prog.Id.faest_em_192f_sign_with_randomness, [ptr 0, ptr 0, lo,
  ptr 0, lo, ptr 5, ptr 3, lo, lo, lo, lo, lo, ptr 0, hi, lo, ptr 3, lo], lo⟩
def faest_em_192f_sign.t1 : Sig := ⟨Prog.Id.faest_em_192f_sign, [ptr 0, ptr 0, lo, ptr 5, ptr 3, lo, lo, lo, ptr 0,
  lo, lo], lo⟩
def faest_em_192f_validate_keypair.t1 : Sig := ⟨Prog.Id.faest_em_192f_validate_keypair, [ptr 0, ptr 0, lo, ptr 0, hi,
  lo, ptr 0, hi, lo, lo], lo⟩
def aes256_encrypt_block.t1 : Sig := ⟨Prog.Id.aes256_encrypt_block, [ptr 0, ptr 0, ptr 0, ptr 0, hi, hi], hi⟩
def owf_256.t1 : Sig := ⟨Prog.Id.owf_256, [ptr 0, ptr 0, ptr 0, ptr 0, hi, hi, hi, hi], hi⟩
def faest_256s_keygen.t1 : Sig := ⟨Prog.Id.faest_256s_keygen, [ptr 0, ptr 0, lo, lo, lo, hi, lo, ptr 0], lo⟩
def faest_256s_sign_with_randomness.t1 : Sig := ⟨Prog.Id.faest_256s_sign_with_randomness, [ptr 0, ptr 0, lo, ptr 0,
  lo, ptr 5, ptr 3, lo, lo, lo, lo, lo, ptr 0, hi, lo, ptr 3, lo], lo⟩
def faest_256s_sign.t1 : Sig := ⟨Prog.Id.faest_256s_sign, [ptr 0, ptr 0, lo, ptr 5, ptr 3, lo, lo, lo, ptr 0, lo,
  lo], lo⟩
def faest_256s_validate_keypair.t1 : Sig := ⟨Prog.Id.faest_256s_validate_keypair, [ptr 0, ptr 0, lo, ptr 0, hi, lo,
  ptr 0, hi, lo, lo], lo⟩
def faest_256f_keygen.t1 : Sig := ⟨Prog.Id.faest_256f_keygen, [ptr 0, ptr 0, lo, lo, lo, hi, lo, ptr 0], lo⟩
def faest_256f_sign_with_randomness.t1 : Sig := ⟨Prog.Id.faest_256f_sign_with_randomness, [ptr 0, ptr 0, lo, ptr 0,
  lo, ptr 5, ptr 3, lo, lo, lo, lo, lo, ptr 0, hi, lo, ptr 3, lo], lo⟩
def faest_256f_sign.t1 : Sig := ⟨Prog.Id.faest_256f_sign, [ptr 0, ptr 0, lo, ptr 5, ptr 3, lo, lo, lo, ptr 0, lo,
  lo], lo⟩
def faest_256f_validate_keypair.t1 : Sig := ⟨Prog.Id.faest_256f_validate_keypair, [ptr 0, ptr 0, lo, ptr 0, hi, lo,
  ptr 0, hi, lo, lo], lo⟩
def rijndael256_encrypt_block.t1 : Sig := ⟨Prog.Id.rijndael256_encrypt_block, [ptr 0, ptr 0, ptr 0, ptr 0, hi, hi],
  hi⟩
def owf_em_256.t1 : Sig := ⟨Prog.Id.owf_em_256, [ptr 0, ptr 0, ptr 0, ptr 0, hi, hi, hi, lo], hi⟩
def faest_em_256s_keygen.t1 : Sig := ⟨Prog.Id.faest_em_256s_keygen, [ptr 0, ptr 0, lo, lo, lo, hi, lo, ptr 0], lo⟩
def faest_em_256s_sign_with_randomness.t1 : Sig := ⟨Prog.Id.faest_em_256s_sign_with_randomness, [ptr 0, ptr 0, lo,
  ptr 0, lo, ptr 5, ptr 3, lo, lo, lo, lo, lo, ptr 0, hi, lo, ptr 3, lo], lo⟩
def faest_em_256s_sign.t1 : Sig := ⟨Prog.Id.faest_em_256s_sign, [ptr 0, ptr 0, lo, ptr 5, ptr 3, lo, lo, lo, ptr 0,
  lo, lo], lo⟩
def faest_em_256s_validate_keypair.t1 : Sig := ⟨Prog.Id.faest_em_256s_validate_keypair, [ptr 0, ptr 0, lo, ptr 0, hi,
  lo, ptr 0, hi, lo, lo], lo⟩
def faest_em_256f_keygen.t1 : Sig := ⟨Prog.Id.faest_em_256f_keygen, [ptr 0, ptr 0, lo, lo, lo, hi, lo, ptr 0], lo⟩
def faest_em_256f_sign_with_randomness.t1 : Sig := ⟨Prog.Id.faest_em_256f_sign_with_randomness, [ptr 0, ptr 0, lo,
  ptr 0, lo, ptr 5, ptr 3, lo, lo, lo, lo, lo, ptr 0, hi, lo, ptr 3, lo], lo⟩
def faest_em_256f_sign.t1 : Sig := ⟨Prog.Id.faest_em_256f_sign, [ptr 0, ptr 0, lo, ptr 5, ptr 3, lo, lo, lo, ptr 0,
  lo, lo], lo⟩
def faest_em_256f_validate_keypair.t1 : Sig := ⟨Prog.Id.faest_em_256f_validate_keypair, [ptr 0, ptr 0, lo, ptr 0, hi,
  lo, ptr 0, hi, lo, lo], lo⟩

def recs : List (List Ty) := [
  [hi],
  [ptr 0, lo, lo, lo],
  [ptr 1, lo, lo],
  [lo],
  [out],
  [ptr 0, ptr 4, ptr 4],
  [ptr 0, lo, lo],
  [ptr 0],
  [ptr 4],
  [ptr 3],
  [ptr 0, ptr 0, ptr 0, ptr 0],
  [hi, hi, hi, hi, ptr 0]]

def globs : List Nat := [3, 3, 3, 3, 3, 3, 3, 3, 3, 3, 4, 0, 3, 3]

def rHi : Nat := 0

def rLo : Nat := 3

def rOut : Nat := 4

def rSig : Nat := 5

def part0 : List Sig := [
  memset.t1, KeccakP1600_Initialize.t1, KeccakWidth1600_SpongeInitialize.t1, Keccak_HashInitialize.t1, hash_init.t1,
    H1_init.t1, KeccakF1600_FastLoop_Absorb.t1, KeccakP1600_AddLanes.t1, memcpy.t1, KeccakP1600_AddBytesInLane.t1,
    KeccakP1600_AddBytes.t1]

def part1 : List Sig := [
  KeccakP1600_Permute_24rounds.t1, KeccakWidth1600_SpongeAbsorb.t1, Keccak_HashUpdate.t1, hash_update.t1,
    H1_update.t1]

def part2 : List Sig := [
  KeccakF1600_FastLoop_Absorb.t2, KeccakP1600_AddLanes.t2, memcpy.t2, KeccakP1600_AddBytesInLane.t2,
    KeccakP1600_AddBytes.t2, KeccakWidth1600_SpongeAbsorb.t2, Keccak_HashUpdate.t2, hash_update.t2,
    KeccakWidth1600_SpongeAbsorbLastFewBits.t1, KeccakP1600_ExtractLanes.t1, KeccakP1600_ExtractBytesInLane.t1,
    KeccakP1600_ExtractBytes.t1, KeccakWidth1600_SpongeSqueeze.t1, Keccak_HashFinal.t1, hash_final.t1,
    Keccak_HashSqueeze.t1, hash_squeeze.t1, H1_final.t1, hash_mu.t1, H3_init.t1, H3_update.t1, signature_iv.t1,
    memcpy.t3, KeccakP1600_ExtractLanes.t2, KeccakP1600_ExtractBytesInLane.t2, KeccakP1600_ExtractBytes.t2,
    KeccakWidth1600_SpongeSqueeze.t2, Keccak_HashSqueeze.t2, hash_squeeze.t2, H3_final.t1, signature_c.t1, memcpy.t4,
    bf8_load.t1, rot_word.t1, contains_zero.t1, bf8_square.t1, bf8_mul.t1]

def part3 : List Sig := [
  bf8_inv.t1, parity8.t1, compute_sbox.t1, sub_words.t1, expand_key.t1, aes256_init_round_keys.t1, bf8_load.t2,
    load_state.t1, xor_u8_array.t1, add_round_key.t1, sub_bytes.t1, shift_row.t1, bf8_mul.t2, mix_column.t1,
    aes_encrypt.t1, bf8_store.t1, store_state.t1, aes_increment_iv.t1, aes192_init_round_keys.t1,
    aes128_init_round_keys.t1, prg.t1, getBinaryTreeNodeCount.t1, create_tree.t1, is_left_child.t1, get_parent.t1,
    expand_seeds.t1, generate_seeds.t1, KeccakP1600times4_StaticInitialize.t1, KeccakP1600times4_InitializeAll.t1,
    KeccakWidth1600times4_SpongeInitialize.t1, Keccak_HashInitializetimes4.t1, hash_init_x4.t1, H0_x4_init.t1,
    KeccakP1600times4_AddBytes.t1, KeccakP1600times4_PermuteAll_24rounds.t1, KeccakWidth1600times4_SpongeAbsorb.t1,
    Keccak_HashUpdatetimes4.t1, hash_update_x4.t1, hash_update_x4_4.t1, H0_x4_update.t1, KeccakP1600_AddLanes.t3,
    KeccakP1600_AddBytesInLane.t3, KeccakP1600_AddBytes.t3, KeccakP1600times4_AddBytes.t2,
    KeccakWidth1600times4_SpongeAbsorb.t2, Keccak_HashUpdatetimes4.t2, hash_update_x4.t2, hash_update_x4_4.t2,
    H0_x4_update.t2, KeccakP1600times4_AddBytes.t3, KeccakWidth1600times4_SpongeAbsorb.t3,
    Keccak_HashUpdatetimes4.t3, hash_update_x4.t3, hash_update_x4_1.t1, KeccakP1600times4_AddByte.t1,
    KeccakWidth1600times4_SpongeAbsorbLastFewBits.t1, KeccakP1600times4_ExtractBytes.t1,
    KeccakWidth1600times4_SpongeSqueeze.t1, Keccak_HashFinaltimes4.t1, hash_final_x4.t1, Keccak_HashSqueezetimes4.t1,
    hash_squeeze_x4.t1, hash_squeeze_x4_4.t1, H0_x4_final.t1, H0_init.t1, H0_update.t1]

def part4 : List Sig := [
  KeccakF1600_FastLoop_Absorb.t3, KeccakWidth1600_SpongeAbsorb.t3, Keccak_HashUpdate.t3, hash_update.t3,
    H0_update.t2, H0_final.t1, vector_commitment.t1, ConvertToVole.t1, vole_commit.t1, H2_init.t1, H2_update.t1,
    H2_update.t2, H2_final.t1, hash_challenge_1.t1, signature_u_tilde.t1, bf256_load.t1, bf256_bit_to_uint64_mask.t1,
    bf256_and_64.t1, bf256_shift_left_1.t1, bf256_add.t1, bf256_mul.t1, bf64_load.t1, bf64_zero.t1, bf64_one.t1,
    bf64_mul.t1, bf64_add.t1, compute_h1.t1, bf256_mul_64.t1, bf256_store.t1]

def part5 : List Sig := [
  vole_hash_256.t1, bf192_load.t1, bf192_bit_to_uint64_mask.t1, bf192_and_64.t1, bf192_shift_left_1.t1, bf192_add.t1,
    bf192_mul.t1, bf192_mul_64.t1, bf192_store.t1, vole_hash_192.t1, bf128_load.t1, bf128_bit_to_uint64_mask.t1,
    bf128_and_64.t1, bf128_shift_left_1.t1, bf128_add.t1, bf128_mul.t1, bf128_mul_64.t1, bf128_store.t1,
    vole_hash_128.t1, vole_hash.t1, rijndael256_init_round_keys.t1, rijndael192_init_round_keys.t1, load_state.t2,
    aes_extend_witness.t1, signature_d.t1, hash_challenge_2.t1, signature_a_tilde.t1,
    column_to_row_major_and_shrink_V_256.t1, memset.t2, bf256_zero.t1, zk_hash_256_init.t1,
    aes_key_schedule_forward_1.t1, aes_key_schedule_forward_256.t1, rotr8.t1, aes_key_schedule_backward_1.t1,
    bf256_load.t2, bf256_from_bf8.t1, bf256_from_bit.t1, bf256_and_64.t2, bf256_mul_bit.t1, bf256_add.t2,
    bf256_add.t3, aes_key_schedule_backward_256.t1, bf256_from_bf8.t2, bf256_from_bit.t2, bf256_and_64.t3,
    bf256_mul_bit.t2, bf256_byte_combine_bits.t1, bf256_bit_to_uint64_mask.t2, bf256_and_64.t4, bf256_mul.t2,
    bf256_byte_combine.t1, zk_hash_256_update.t1, bf256_one.t1, aes_key_schedule_constraints_Mkey_0_256.t1,
    bf256_byte_combine_bits.t2, aes_enc_forward_256_1.t1, aes_enc_forward_256.t1, aes_enc_backward_256_1.t1,
    aes_enc_backward_256.t1, aes_enc_constraints_Mkey_0_256.t1, zk_hash_256_finalize.t1, bf256_dbl.t1,
    bf256_sum_poly.t1, aes_prove_256.t1, em_enc_forward_256_1.t1, bf256_shift_left_1.t2, bf256_mul.t3,
    bf256_byte_combine.t2, em_enc_forward_256.t1, em_enc_backward_256_1.t1, em_enc_backward_256.t1,
    em_enc_constraints_Mkey_0_256.t1, em_prove_256.t1, column_to_row_major_and_shrink_V_192.t1, bf192_zero.t1,
    zk_hash_192_init.t1, aes_key_schedule_forward_192.t1, bf192_load.t2, bf192_from_bf8.t1, bf192_from_bit.t1,
    bf192_and_64.t2, bf192_mul_bit.t1, bf192_add.t2, bf192_add.t3, aes_key_schedule_backward_192.t1,
    bf192_from_bf8.t2, bf192_from_bit.t2, bf192_and_64.t3, bf192_mul_bit.t2, bf192_byte_combine_bits.t1,
    bf192_bit_to_uint64_mask.t2, bf192_and_64.t4, bf192_mul.t2, bf192_byte_combine.t1, zk_hash_192_update.t1,
    bf192_one.t1, aes_key_schedule_constraints_Mkey_0_192.t1, bf192_byte_combine_bits.t2, aes_enc_forward_192_1.t1,
    aes_enc_forward_192.t1, aes_enc_backward_192_1.t1, aes_enc_backward_192.t1, aes_enc_constraints_Mkey_0_192.t1,
    zk_hash_192_finalize.t1, bf192_dbl.t1, bf192_sum_poly.t1, aes_prove_192.t1, em_enc_forward_192_1.t1,
    bf192_shift_left_1.t2, bf192_mul.t3, bf192_byte_combine.t2, em_enc_forward_192.t1, em_enc_backward_192_1.t1,
    em_enc_backward_192.t1, em_enc_constraints_Mkey_0_192.t1, em_prove_192.t1,
    column_to_row_major_and_shrink_V_128.t1, bf128_zero.t1, zk_hash_128_init.t1, aes_key_schedule_forward_128.t1,
    bf128_load.t2, bf128_from_bf8.t1, bf128_from_bit.t1, bf128_and_64.t2, bf128_mul_bit.t1, bf128_add.t2,
    bf128_add.t3, aes_key_schedule_backward_128.t1, bf128_from_bf8.t2, bf128_from_bit.t2, bf128_and_64.t3,
    bf128_mul_bit.t2, bf128_byte_combine_bits.t1, bf128_bit_to_uint64_mask.t2, bf128_and_64.t4, bf128_mul.t2,
    bf128_byte_combine.t1, zk_hash_128_update.t1, bf128_one.t1, aes_key_schedule_constraints_Mkey_0_128.t1,
    bf128_byte_combine_bits.t2, aes_enc_forward_128_1.t1, aes_enc_forward_128.t1, aes_enc_backward_128_1.t1,
    aes_enc_backward_128.t1, aes_enc_constraints_Mkey_0_128.t1, zk_hash_128_finalize.t1, bf128_dbl.t1,
    bf128_sum_poly.t1, aes_prove_128.t1, em_enc_forward_128_1.t1, bf128_shift_left_1.t2, bf128_mul.t3,
    bf128_byte_combine.t2, em_enc_forward_128.t1, em_enc_backward_128_1.t1, em_enc_backward_128.t1,
    em_enc_constraints_Mkey_0_128.t1, em_prove_128.t1, aes_prove.t1, signature_chall_3.t1, H2_final.t2]

def part6 : List Sig := [
  hash_challenge_3.t1, ChalDec.t1, signature_pdec.t1, signature_com.t1, NumRec.t1, getNodeIndex.t1, vector_open.t1,
    vec_com_clear.t1, faest_sign.t1, rand_bytes.t1, aes128_encrypt_block.t1, owf_128.t1, faest_128s_keygen.t1,
    faest_get_paramset.t1, faest_128s_sign_with_randomness.t1, faest_128s_sign.t1, faest_timingsafe_bcmp.t1,
    faest_128s_validate_keypair.t1, faest_128f_keygen.t1, faest_128f_sign_with_randomness.t1, faest_128f_sign.t1,
    faest_128f_validate_keypair.t1, owf_em_128.t1, faest_em_128s_keygen.t1, faest_em_128s_sign_with_randomness.t1,
    faest_em_128s_sign.t1, faest_em_128s_validate_keypair.t1, faest_em_128f_keygen.t1,
    faest_em_128f_sign_with_randomness.t1, faest_em_128f_sign.t1, faest_em_128f_validate_keypair.t1,
    aes192_encrypt_block.t1, owf_192.t1, faest_192s_keygen.t1, faest_192s_sign_with_randomness.t1,
    faest_192s_sign.t1, faest_192s_validate_keypair.t1, faest_192f_keygen.t1, faest_192f_sign_with_randomness.t1,
    faest_192f_sign.t1, faest_192f_validate_keypair.t1, rijndael192_encrypt_block.t1, owf_em_192.t1,
    faest_em_192s_keygen.t1, faest_em_192s_sign_with_randomness.t1, faest_em_192s_sign.t1,
    faest_em_192s_validate_keypair.t1, faest_em_192f_keygen.t1, faest_em_192f_sign_with_randomness.t1,
    faest_em_192f_sign.t1, faest_em_192f_validate_keypair.t1, aes256_encrypt_block.t1, owf_256.t1,
    faest_256s_keygen.t1, faest_256s_sign_with_randomness.t1, faest_256s_sign.t1, faest_256s_validate_keypair.t1,
    faest_256f_keygen.t1, faest_256f_sign_with_randomness.t1, faest_256f_sign.t1, faest_256f_validate_keypair.t1,
    rijndael256_encrypt_block.t1, owf_em_256.t1, faest_em_256s_keygen.t1, faest_em_256s_sign_with_randomness.t1,
    faest_em_256s_sign.t1, faest_em_256s_validate_keypair.t1, faest_em_256f_keygen.t1,
    faest_em_256f_sign_with_randomness.t1, faest_em_256f_sign.t1, faest_em_256f_validate_keypair.t1]

end Cert0

def cert : Cert := ⟨Cert0.recs, Cert0.globs,
  Cert0.part0 ++ Cert0.part1 ++ Cert0.part2 ++ Cert0.part3 ++ Cert0.part4 ++ Cert0.part5 ++ Cert0.part6⟩

end Faest.Leak
