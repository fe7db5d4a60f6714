/-!
# The text of the source files

The files of /repo/src, verbatim, as lists of lines; `/verif/tools/check_source.py` compares them with /repo.
-/

namespace Source.Text

/-- /repo/src/lib.rs -/
def lib : List String := [
  "mod bmw;",
  "mod cubehash;",
  "mod lyra2mod;",
  "mod utils;",
  "pub mod lyra2;",
  "pub mod lyra2z;",
  "pub mod lyra2re;",
  "pub mod lyra2rev2;",
  "pub mod lyra2rev3;",
  ""]

/-- /repo/src/utils.rs -/
def utils : List String := [
  "#[inline(always)]",
  "pub fn read_u32_le(data: &[u8]) -> u32 {",
  "    (data[0] as u32) |",
  "    ((data[1] as u32) << 8) |",
  "    ((data[2] as u32) << 16) |",
  "    ((data[3] as u32) << 24)",
  "}",
  "",
  "#[inline(always)]",
  "pub fn read_u64_le(data: &[u8]) -> u64 {",
  "    (data[0] as u64) |",
  "    ((data[1] as u64) << 8) |",
  "    ((data[2] as u64) << 16) |",
  "    ((data[3] as u64) << 24) |",
  "    ((data[4] as u64) << 32) |",
  "    ((data[5] as u64) << 40) |",
  "    ((data[6] as u64) << 48) |",
  "    ((data[7] as u64) << 56)",
  "}",
  ""]

/-- /repo/src/lyra2.rs -/
def lyra2 : List String := [
  "//! # lyra2",
  "//!",
  "//! `lyra2` crate has necessary formulas to calculate `lyra2`.",
  "use crate::utils::read_u64_le;",
  "",
  "const BLAKE2BIV: [u64; 8] = [",
  "    0x6a09_e667_f3bc_c908,",
  "    0xbb67_ae85_84ca_a73b,",
  "    0x3c6e_f372_fe94_f82b,",
  "    0xa54f_f53a_5f1d_36f1,",
  "    0x510e_527f_ade6_82d1,",
  "    0x9b05_688c_2b3e_6c1f,",
  "    0x1f83_d9ab_fb41_bd6b,",
  "    0x5be0_cd19_137e_2179,",
  "];",
  "",
  "const BLOCKLENINT64: i64 = 12; //Block length: 768 bits (=96 bytes, =12 uint64_t)",
  "const BLOCKLENBYTES: i64 = BLOCKLENINT64 * 8; //Block length, in bytes",
  "const BLOCKLENBLAKE2SAFEINT64: i64 = 8; //512 bits (=64 bytes, =8 uint64_t)",
  "const BLOCKLENBLAKE2SAFEBYTES: i64 = BLOCKLENBLAKE2SAFEINT64 * 8; //same as above, in bytes",
  "",
  "/*Blake2b's rotation*/",
  "fn rotr64(w: u64, c: u8) -> u64 {",
  "    (w >> c) | (w << (64 - c))",
  "}",
  "",
  "/*g is Blake2b's G function*/",
  "fn g(a: u64, b: u64, c: u64, d: u64) -> [u64; 4] {",
  "    let mut abcd: [u64; 4] = [a, b, c, d];",
  "    abcd[0] = abcd[0].wrapping_add(abcd[1]);",
  "    abcd[3] = rotr64(abcd[3] ^ abcd[0], 32);",
  "    abcd[2] = abcd[2].wrapping_add(abcd[3]);",
  "    abcd[1] = rotr64(abcd[1] ^ abcd[2], 24);",
  "    abcd[0] = abcd[0].wrapping_add(abcd[1]);",
  "    abcd[3] = rotr64(abcd[3] ^ abcd[0], 16);",
  "    abcd[2] = abcd[2].wrapping_add(abcd[3]);",
  "    abcd[1] = rotr64(abcd[1] ^ abcd[2], 63);",
  "    abcd",
  "}",
  "",
  "/*round_lyra is One Round of the Blake2b's compression function*/",
  "fn round_lyra(mut v: [u64; 16]) -> [u64; 16] {",
  "    let mut abcd = g(v[0], v[4], v[8], v[12]);",
  "    v[0] = abcd[0];",
  "    v[4] = abcd[1];",
  "    v[8] = abcd[2];",
  "    v[12] = abcd[3];",
  "    abcd = g(v[1], v[5], v[9], v[13]);",
  "    v[1] = abcd[0];",
  "    v[5] = abcd[1];",
  "    v[9] = abcd[2];",
  "    v[13] = abcd[3];",
  "    abcd = g(v[2], v[6], v[10], v[14]);",
  "    v[2] = abcd[0];",
  "    v[6] = abcd[1];",
  "    v[10] = abcd[2];",
  "    v[14] = abcd[3];",
  "    abcd = g(v[3], v[7], v[11], v[15]);",
  "    v[3] = abcd[0];",
  "    v[7] = abcd[1];",
  "    v[11] = abcd[2];",
  "    v[15] = abcd[3];",
  "    abcd = g(v[0], v[5], v[10], v[15]);",
  "    v[0] = abcd[0];",
  "    v[5] = abcd[1];",
  "    v[10] = abcd[2];",
  "    v[15] = abcd[3];",
  "    abcd = g(v[1], v[6], v[11], v[12]);",
  "    v[1] = abcd[0];",
  "    v[6] = abcd[1];",
  "    v[11] = abcd[2];",
  "    v[12] = abcd[3];",
  "    abcd = g(v[2], v[7], v[8], v[13]);",
  "    v[2] = abcd[0];",
  "    v[7] = abcd[1];",
  "    v[8] = abcd[2];",
  "    v[13] = abcd[3];",
  "    abcd = g(v[3], v[4], v[9], v[14]);",
  "    v[3] = abcd[0];",
  "    v[4] = abcd[1];",
  "    v[9] = abcd[2];",
  "    v[14] = abcd[3];",
  "    v",
  "}",
  "",
  "/**",
  " * init_state Initializes the Sponge State. The first 512 bits are set to zeros and the remainder",
  " * receive Blake2b's IV as per Blake2b's specification. <b>Note:</b> Even though sponges",
  " * typically have their internal state initialized with zeros, Blake2b's G function",
  " * has a fixed point: if the internal state and message are both filled with zeros. the",
  " * resulting permutation will always be a block filled with zeros; this happens because",
  " * Blake2b does not use the constants originally employed in Blake2 inside its G function,",
  " * relying on the IV for avoiding possible fixed points.",
  " *",
  " * @param state         The 1024-bit array to be initialized",
  " */",
  "fn init_state() -> [u64; 16] {",
  "    let mut s: [u64; 16] = [0, 0, 0, 0, 0, 0, 0, 0, 0, 0, 0, 0, 0, 0, 0, 0];",
  "    s[8] = BLAKE2BIV[0];",
  "    s[9] = BLAKE2BIV[1];",
  "    s[10] = BLAKE2BIV[2];",
  "    s[11] = BLAKE2BIV[3];",
  "    s[12] = BLAKE2BIV[4];",
  "    s[13] = BLAKE2BIV[5];",
  "    s[14] = BLAKE2BIV[6];",
  "    s[15] = BLAKE2BIV[7];",
  "    s",
  "}",
  "",
  "/**",
  " * blake2b_lyra Execute Blake2b's G function, with all 12 rounds.",
  " *",
  " * @param v     A 1024-bit (16 uint64_t) array to be processed by Blake2b's G function",
  " */",
  "fn blake2b_lyra(mut v: [u64; 16]) -> [u64; 16] {",
  "    v = round_lyra(v);",
  "    v = round_lyra(v);",
  "    v = round_lyra(v);",
  "    v = round_lyra(v);",
  "    v = round_lyra(v);",
  "    v = round_lyra(v);",
  "    v = round_lyra(v);",
  "    v = round_lyra(v);",
  "    v = round_lyra(v);",
  "    v = round_lyra(v);",
  "    v = round_lyra(v);",
  "    v = round_lyra(v);",
  "    v",
  "}",
  "",
  "/**",
  " * reduced_blake2b_lyra Executes a reduced version of Blake2b's G function with only one round",
  " * @param v     A 1024-bit (16 uint64_t) array to be processed by Blake2b's G function",
  " */",
  "fn reduced_blake2b_lyra(mut v: [u64; 16]) -> [u64; 16] {",
  "    v = round_lyra(v);",
  "    v",
  "}",
  "",
  "/**",
  " * squeeze Performs a squeeze operation, using Blake2b's G function as the",
  " * internal permutation",
  " *",
  " * @param state      The current state of the sponge",
  " * @param out        Array that will receive the data squeezed",
  r#" * @param len        The number of bytes to be squeezed into the "out" array"#,
  " */",
  "fn squeeze(mut state: [u64; 16], output_size: u64) -> Vec<u8> {",
  "    let mut tmp = vec![];",
  "    let mut out = vec![0; output_size as usize];",
  "    let mut _j = 0;",
  "    let jmax = output_size as i64 / BLOCKLENBYTES + 1;",
  "    for _j in 0..jmax {",
  "        for _i in 0..BLOCKLENINT64 {",
  "            tmp.extend_from_slice(&state[_i as usize].to_le_bytes());",
  "        }",
  "        //be care in case of len(out[i:])<len(tmp)",
  "        out[..output_size as usize].clone_from_slice(&tmp[..output_size as usize]);",
  "        state = blake2b_lyra(state);",
  "    }",
  "    out",
  "}",
  "",
  "/**",
  " * absorb_block Performs an absorb operation for a single block (BLOCK_LEN_INT64 words",
  " * of type uint64_t), using Blake2b's G function as the internal permutation",
  " *",
  " * @param s    The current state of the sponge",
  " * @param w    The block to be absorbed (BLOCK_LEN_INT64 words)",
  " */",
  "fn absorb_block(mut s: [u64; 16], w: Vec<u64>) -> [u64; 16] {",
  r#"    //XORs the first BLOCK_LEN_INT64 words of "in" with the current state"#,
  "    s[0] ^= w[0];",
  "    s[1] ^= w[1];",
  "    s[2] ^= w[2];",
  "    s[3] ^= w[3];",
  "    s[4] ^= w[4];",
  "    s[5] ^= w[5];",
  "    s[6] ^= w[6];",
  "    s[7] ^= w[7];",
  "    s[8] ^= w[8];",
  "    s[9] ^= w[9];",
  "    s[10] ^= w[10];",
  "    s[11] ^= w[11];",
  "",
  "    //Applies the transformation f to the sponge's state",
  "    s = blake2b_lyra(s);",
  "    s",
  "}",
  "",
  "/**",
  " * absorb_block_blake2_safe  Performs an absorb operation for a single block (BLOCK_LEN_BLAKE2_SAFE_INT64",
  " * words of type uint64_t), using Blake2b's G function as the internal permutation",
  " *",
  " * @param s    The current state of the sponge",
  " * @param w    The block to be absorbed (BLOCK_LEN_BLAKE2_SAFE_INT64 words)",
  " */",
  "fn absorb_block_blake2_safe(mut s: [u64; 16], w: Vec<u64>) -> [u64; 16] {",
  r#"    //XORs the first BLOCK_LEN_BLAKE2_SAFE_INT64 words of "in" with the current state"#,
  "    s[0] ^= w[0];",
  "    s[1] ^= w[1];",
  "    s[2] ^= w[2];",
  "    s[3] ^= w[3];",
  "    s[4] ^= w[4];",
  "    s[5] ^= w[5];",
  "    s[6] ^= w[6];",
  "    s[7] ^= w[7];",
  "    //Applies the transformation f to the sponge's state",
  "    s = blake2b_lyra(s);",
  "    s",
  "}",
  "",
  "// lyra2 Executes Lyra2 based on the G function from Blake2b. This version supports salts and passwords",
  "// whose combined length is smaller than the size of the memory matrix, (i.e., (n_rows x n_cols x b) bits,",
  r#"// where "b" is the underlying sponge's bitrate). In this implementation, the "basil" is composed by all"#,
  r#"// integer parameters (treated as type "unsigned int") in the order they are provided, plus the value"#,
  "// of n_cols, (i.e., basil = kLen || pwdlen || saltlen || timeCost || n_rows || n_cols).",
  "//",
  "// @param K The derived key to be output size by the algorithm",
  "// @param pwd User password",
  "// @param salt Salt",
  "// @param time_cost Parameter to determine the processing time (T)",
  "// @param n_rows Number or rows of the memory matrix (R)",
  "// @param n_cols Number of columns of the memory matrix (C)",
  "/// Returns the calculation result of lyra2(advanced).",
  "/// # Examples",
  "///",
  "/// ```",
  r#"/// let base1 = "abc".as_bytes().to_vec();"#,
  "/// let base2 = base1.clone();",
  "/// let lyra2_result1 = lyra2::lyra2::lyra2(32, base1, base2, 1, 4, 4);",
  "/// assert_eq!(",
  r#"///     "8f63758bd178f014ea3fd4df09ff0a61646dc574a0b6bcf2890ec529a6a7360c","#,
  "///     lyra2_result1",
  "///         .iter()",
  r#"///         .map(|n| format!("{:02x}", n))"#,
  "///         .collect::<String>()",
  "/// );",
  "/// ```",
  "///",
  "/// # Panics",
  "///",
  "/// `time_cost` < 1, `n_rows` < 3",
  "///",
  "pub fn lyra2(",
  "    k: u64,",
  "    pwd: Vec<u8>,",
  "    salt: Vec<u8>,",
  "    time_cost: u64,",
  "    n_rows: u64,",
  "    n_cols: u64,",
  ") -> Vec<u8> {",
  "    //============================= parameter check ============================//",
  "    if time_cost < 1 {panic!()};",
  "    if n_rows < 3 {panic!()};",
  "    //==========================================================================/",
  "",
  "    //============================= Basic variables ============================//",
  "    let mut row: i64 = 2; //index of row to be processed",
  "    let mut prev: i64 = 1; //index of prev (last row ever computed/modified)",
  "    let mut rowa: i64 = 0; //index of row* (a previous row, deterministically picked during Setup and randomly picked while Wandering)",
  "    let mut _tau: i64 = 1; //Time Loop iterator",
  "    let mut step: i64 = 1; //Visitation step (used during Setup and Wandering phases)",
  "    let mut window: i64 = 2; //Visitation window (used to define which rows can be revisited during Setup)",
  "    let mut gap: i64 = 1; //Modifier to the step, assuming the values 1 or -1",
  "    let mut _i: i64 = 0; //auxiliary iteration counter",
  "    //==========================================================================/",
  "",
  "    //========== Initializing the Memory Matrix and pointers to it =============//",
  "    //Tries to allocate enough space for the whole memory matrix",
  "",
  "    let row_len_int64: i64 = BLOCKLENINT64 * n_cols as i64;",
  "    let mut _i: i64 = n_rows as i64 * row_len_int64;",
  "    let mut whole_matrix: Vec<u64> = vec![0; _i as usize];",
  "    whole_matrix.resize(_i as usize, 0);",
  "",
  "    //==========================================================================/",
  "",
  "    //============= Getting the password + salt + basil padded with 10*1 ===============//",
  "    //OBS.:The memory matrix will temporarily hold the password: not for saving memory,",
  "    //but this ensures that the password copied locally will be overwritten as soon as possible",
  "",
  "    //First, we clean enough blocks for the password, salt, basil and padding",
  "    let n_blocks_input: i64 =",
  "        ((salt.len() + pwd.len() + 6 * 8) as i64 / BLOCKLENBLAKE2SAFEBYTES) + 1;",
  "    let mut ptr_byte: usize = 0; // (byte*) whole_matrix;",
  "",
  "    // Prepends the password",
  "    for j in 0..pwd.len() / 8 {",
  "        let start = 8 * j;",
  "        let end = start + 8;",
  "        whole_matrix[ptr_byte + j] = read_u64_le(&pwd[start..end]);",
  "    }",
  "",
  "    ptr_byte += (pwd.len() as u64 / 8) as usize;",
  "",
  "    // Concatenates the salt",
  "    for j in 0..salt.len() / 8 {",
  "        let start = 8 * j;",
  "        let end = start + 8;",
  "        whole_matrix[ptr_byte + j] = read_u64_le(&salt[start..end]);",
  "    }",
  "",
  "    ptr_byte += (salt.len() as u64 / 8) as usize;",
  "",
  "    //Concatenates the basil: every integer passed as parameter, in the order they are provided by the interface",
  "    whole_matrix[ptr_byte] = k;",
  "    ptr_byte += 1;",
  "    whole_matrix[ptr_byte] = pwd.len() as u64;",
  "    ptr_byte += 1;",
  "    whole_matrix[ptr_byte] = salt.len() as u64;",
  "    ptr_byte += 1;",
  "    whole_matrix[ptr_byte] = time_cost;",
  "    ptr_byte += 1;",
  "    whole_matrix[ptr_byte] = n_rows;",
  "    ptr_byte += 1;",
  "    whole_matrix[ptr_byte] = n_cols;",
  "    ptr_byte += 1;",
  "",
  "    //Now comes the padding",
  "    whole_matrix[ptr_byte] = 0x80; //first byte of padding: right after the password",
  "                                   //resets the pointer to the start of the memory matrix",
  "    ptr_byte = ((n_blocks_input * BLOCKLENBLAKE2SAFEBYTES) / 8 - 1) as usize; //sets the pointer to the correct position: end of incomplete block",
  "    whole_matrix[ptr_byte] ^= 0x0100_0000_0000_0000; //last byte of padding: at the end of the last incomplete block00",
  "    //==========================================================================/",
  "",
  "    //======================= Initializing the Sponge State ====================//",
  "    //Sponge state: 16 uint64_t, BLOCK_LEN_INT64 words of them for the bitrate (b) and the remainder for the capacity (c)",
  "    let mut state = init_state();",
  "    //==========================================================================/",
  "",
  "    //================================ Setup Phase =============================//",
  "    //Absorbing salt, password and basil: this is the only place in which the block length is hard-coded to 512 bits",
  "    let mut ptr_word = 0;",
  "    for _i in 0..n_blocks_input {",
  "        let (_, mut _right) = &whole_matrix.split_at(ptr_word);",
  "        state = absorb_block_blake2_safe(state, _right.to_vec()); //absorbs each block of pad(pwd || salt || basil)",
  "        ptr_word += BLOCKLENBLAKE2SAFEINT64 as usize; //goes to next block of pad(pwd || salt || basil)",
  "    }",
  "",
  "    //Initializes M[0] and M[1]",
  "    //reducedSqueezeRow0",
  "    //The locally copied password is most likely overwritten here",
  "    let mut ptr = (n_cols as i64 - 1) * BLOCKLENINT64;",
  "    //M[row][C-1-col] = H.reduced_squeeze()",
  "    for _i in 0..n_cols {",
  "        //In Lyra2: pointer to M[0][C-1]",
  "        whole_matrix[ptr as usize] = state[0];",
  "        whole_matrix[(ptr + 1) as usize] = state[1];",
  "        whole_matrix[(ptr + 2) as usize] = state[2];",
  "        whole_matrix[(ptr + 3) as usize] = state[3];",
  "        whole_matrix[(ptr + 4) as usize] = state[4];",
  "        whole_matrix[(ptr + 5) as usize] = state[5];",
  "        whole_matrix[(ptr + 6) as usize] = state[6];",
  "        whole_matrix[(ptr + 7) as usize] = state[7];",
  "        whole_matrix[(ptr + 8) as usize] = state[8];",
  "        whole_matrix[(ptr + 9) as usize] = state[9];",
  "        whole_matrix[(ptr + 10) as usize] = state[10];",
  "        whole_matrix[(ptr + 11) as usize] = state[11];",
  "",
  "        //Goes to next block (column) that will receive the squeezed data",
  "        ptr = ptr.wrapping_sub(BLOCKLENINT64);",
  "",
  "        //Applies the reduced-round transformation f to the sponge's state",
  "        state = reduced_blake2b_lyra(state);",
  "    }",
  "",
  "    //reducedDuplexRow1",
  "    for _i in 0..n_cols {",
  r#"        //Absorbing "M[prev][col]""#,
  "        state[0] ^= whole_matrix[(_i as i64 * BLOCKLENINT64) as usize];",
  "        state[1] ^= whole_matrix[(_i as i64 * BLOCKLENINT64 + 1) as usize];",
  "        state[2] ^= whole_matrix[(_i as i64 * BLOCKLENINT64 + 2) as usize];",
  "        state[3] ^= whole_matrix[(_i as i64 * BLOCKLENINT64 + 3) as usize];",
  "        state[4] ^= whole_matrix[(_i as i64 * BLOCKLENINT64 + 4) as usize];",
  "        state[5] ^= whole_matrix[(_i as i64 * BLOCKLENINT64 + 5) as usize];",
  "        state[6] ^= whole_matrix[(_i as i64 * BLOCKLENINT64 + 6) as usize];",
  "        state[7] ^= whole_matrix[(_i as i64 * BLOCKLENINT64 + 7) as usize];",
  "        state[8] ^= whole_matrix[(_i as i64 * BLOCKLENINT64 + 8) as usize];",
  "        state[9] ^= whole_matrix[(_i as i64 * BLOCKLENINT64 + 9) as usize];",
  "        state[10] ^= whole_matrix[(_i as i64 * BLOCKLENINT64 + 10) as usize];",
  "        state[11] ^= whole_matrix[(_i as i64 * BLOCKLENINT64 + 11) as usize];",
  "",
  "        //Applies the reduced-round transformation f to the sponge's state",
  "        state = reduced_blake2b_lyra(state);",
  "",
  "        //M[row][C-1-col] = M[prev][col] XOR rand",
  "        whole_matrix[((n_cols - _i - 1) as i64 * BLOCKLENINT64 + row_len_int64) as usize] =",
  "            whole_matrix[(_i as i64 * BLOCKLENINT64) as usize] ^ state[0];",
  "        whole_matrix[((n_cols - _i - 1) as i64 * BLOCKLENINT64 + row_len_int64 + 1) as usize] =",
  "            whole_matrix[(_i as i64 * BLOCKLENINT64 + 1) as usize] ^ state[1];",
  "        whole_matrix[((n_cols - _i - 1) as i64 * BLOCKLENINT64 + row_len_int64 + 2) as usize] =",
  "            whole_matrix[(_i as i64 * BLOCKLENINT64 + 2) as usize] ^ state[2];",
  "        whole_matrix[((n_cols - _i - 1) as i64 * BLOCKLENINT64 + row_len_int64 + 3) as usize] =",
  "            whole_matrix[(_i as i64 * BLOCKLENINT64 + 3) as usize] ^ state[3];",
  "        whole_matrix[((n_cols - _i - 1) as i64 * BLOCKLENINT64 + row_len_int64 + 4) as usize] =",
  "            whole_matrix[(_i as i64 * BLOCKLENINT64 + 4) as usize] ^ state[4];",
  "        whole_matrix[((n_cols - _i - 1) as i64 * BLOCKLENINT64 + row_len_int64 + 5) as usize] =",
  "            whole_matrix[(_i as i64 * BLOCKLENINT64 + 5) as usize] ^ state[5];",
  "        whole_matrix[((n_cols - _i - 1) as i64 * BLOCKLENINT64 + row_len_int64 + 6) as usize] =",
  "            whole_matrix[(_i as i64 * BLOCKLENINT64 + 6) as usize] ^ state[6];",
  "        whole_matrix[((n_cols - _i - 1) as i64 * BLOCKLENINT64 + row_len_int64 + 7) as usize] =",
  "            whole_matrix[(_i as i64 * BLOCKLENINT64 + 7) as usize] ^ state[7];",
  "        whole_matrix[((n_cols - _i - 1) as i64 * BLOCKLENINT64 + row_len_int64 + 8) as usize] =",
  "            whole_matrix[(_i as i64 * BLOCKLENINT64 + 8) as usize] ^ state[8];",
  "        whole_matrix[((n_cols - _i - 1) as i64 * BLOCKLENINT64 + row_len_int64 + 9) as usize] =",
  "            whole_matrix[(_i as i64 * BLOCKLENINT64 + 9) as usize] ^ state[9];",
  "        whole_matrix[((n_cols - _i - 1) as i64 * BLOCKLENINT64 + row_len_int64 + 10) as usize] =",
  "            whole_matrix[(_i as i64 * BLOCKLENINT64 + 10) as usize] ^ state[10];",
  "        whole_matrix[((n_cols - _i - 1) as i64 * BLOCKLENINT64 + row_len_int64 + 11) as usize] =",
  "            whole_matrix[(_i as i64 * BLOCKLENINT64 + 11) as usize] ^ state[11];",
  "    }",
  "",
  "    let mut _x: i64 = row;",
  "    for _x in _x..n_rows as i64 {",
  "        //M[row] = rand; //M[row*] = M[row*] XOR rotW(rand)",
  "        //reducedDuplexRowSetup",
  "        for _i in 0..n_cols {",
  r#"            //Absorbing "M[prev] [+] M[row*]""#,
  "            state[0] ^= whole_matrix[(_i as i64 * BLOCKLENINT64 + prev * row_len_int64) as usize]",
  "                .wrapping_add(",
  "                    whole_matrix[(_i as i64 * BLOCKLENINT64 + rowa * row_len_int64) as usize],",
  "                );",
  "            state[1] ^= whole_matrix[(_i as i64 * BLOCKLENINT64 + prev * row_len_int64 + 1) as usize]",
  "                .wrapping_add(",
  "                    whole_matrix[(_i as i64 * BLOCKLENINT64 + rowa * row_len_int64 + 1) as usize],",
  "                );",
  "            state[2] ^= whole_matrix[(_i as i64 * BLOCKLENINT64 + prev * row_len_int64 + 2) as usize]",
  "                .wrapping_add(",
  "                    whole_matrix[(_i as i64 * BLOCKLENINT64 + rowa * row_len_int64 + 2) as usize],",
  "                );",
  "            state[3] ^= whole_matrix[(_i as i64 * BLOCKLENINT64 + prev * row_len_int64 + 3) as usize]",
  "                .wrapping_add(",
  "                    whole_matrix[(_i as i64 * BLOCKLENINT64 + rowa * row_len_int64 + 3) as usize],",
  "                );",
  "            state[4] ^= whole_matrix[(_i as i64 * BLOCKLENINT64 + prev * row_len_int64 + 4) as usize]",
  "                .wrapping_add(",
  "                    whole_matrix[(_i as i64 * BLOCKLENINT64 + rowa * row_len_int64 + 4) as usize],",
  "                );",
  "            state[5] ^= whole_matrix[(_i as i64 * BLOCKLENINT64 + prev * row_len_int64 + 5) as usize]",
  "                .wrapping_add(",
  "                    whole_matrix[(_i as i64 * BLOCKLENINT64 + rowa * row_len_int64 + 5) as usize],",
  "                );",
  "            state[6] ^= whole_matrix[(_i as i64 * BLOCKLENINT64 + prev * row_len_int64 + 6) as usize]",
  "                .wrapping_add(",
  "                    whole_matrix[(_i as i64 * BLOCKLENINT64 + rowa * row_len_int64 + 6) as usize],",
  "                );",
  "            state[7] ^= whole_matrix[(_i as i64 * BLOCKLENINT64 + prev * row_len_int64 + 7) as usize]",
  "                .wrapping_add(",
  "                    whole_matrix[(_i as i64 * BLOCKLENINT64 + rowa * row_len_int64 + 7) as usize],",
  "                );",
  "            state[8] ^= whole_matrix[(_i as i64 * BLOCKLENINT64 + prev * row_len_int64 + 8) as usize]",
  "                .wrapping_add(",
  "                    whole_matrix[(_i as i64 * BLOCKLENINT64 + rowa * row_len_int64 + 8) as usize],",
  "                );",
  "            state[9] ^= whole_matrix[(_i as i64 * BLOCKLENINT64 + prev * row_len_int64 + 9) as usize]",
  "                .wrapping_add(",
  "                    whole_matrix[(_i as i64 * BLOCKLENINT64 + rowa * row_len_int64 + 9) as usize],",
  "                );",
  "            state[10] ^= whole_matrix[(_i as i64 * BLOCKLENINT64 + prev * row_len_int64 + 10) as usize]",
  "                .wrapping_add(",
  "                    whole_matrix[(_i as i64 * BLOCKLENINT64 + rowa * row_len_int64 + 10) as usize],",
  "                );",
  "            state[11] ^= whole_matrix[(_i as i64 * BLOCKLENINT64 + prev * row_len_int64 + 11) as usize]",
  "                .wrapping_add(",
  "                    whole_matrix[(_i as i64 * BLOCKLENINT64 + rowa * row_len_int64 + 11) as usize],",
  "                );",
  "",
  "            //Applies the reduced-round transformation f to the sponge's state",
  "            state = reduced_blake2b_lyra(state);",
  "",
  "            //M[row][col] = M[prev][col] XOR rand",
  "            whole_matrix[((n_cols - _i - 1) as i64 * BLOCKLENINT64 + row * row_len_int64) as usize] =",
  "                whole_matrix[(_i as i64 * BLOCKLENINT64 + prev * row_len_int64) as usize] ^ state[0];",
  "            whole_matrix[((n_cols - _i - 1) as i64 * BLOCKLENINT64 + row * row_len_int64 + 1) as usize] =",
  "                whole_matrix[(_i as i64 * BLOCKLENINT64 + prev * row_len_int64 + 1) as usize] ^ state[1];",
  "            whole_matrix[((n_cols - _i - 1) as i64 * BLOCKLENINT64 + row * row_len_int64 + 2) as usize] =",
  "                whole_matrix[(_i as i64 * BLOCKLENINT64 + prev * row_len_int64 + 2) as usize] ^ state[2];",
  "            whole_matrix[((n_cols - _i - 1) as i64 * BLOCKLENINT64 + row * row_len_int64 + 3) as usize] =",
  "                whole_matrix[(_i as i64 * BLOCKLENINT64 + prev * row_len_int64 + 3) as usize] ^ state[3];",
  "            whole_matrix[((n_cols - _i - 1) as i64 * BLOCKLENINT64 + row * row_len_int64 + 4) as usize] =",
  "                whole_matrix[(_i as i64 * BLOCKLENINT64 + prev * row_len_int64 + 4) as usize] ^ state[4];",
  "            whole_matrix[((n_cols - _i - 1) as i64 * BLOCKLENINT64 + row * row_len_int64 + 5) as usize] =",
  "                whole_matrix[(_i as i64 * BLOCKLENINT64 + prev * row_len_int64 + 5) as usize] ^ state[5];",
  "            whole_matrix[((n_cols - _i - 1) as i64 * BLOCKLENINT64 + row * row_len_int64 + 6) as usize] =",
  "                whole_matrix[(_i as i64 * BLOCKLENINT64 + prev * row_len_int64 + 6) as usize] ^ state[6];",
  "            whole_matrix[((n_cols - _i - 1) as i64 * BLOCKLENINT64 + row * row_len_int64 + 7) as usize] =",
  "                whole_matrix[(_i as i64 * BLOCKLENINT64 + prev * row_len_int64 + 7) as usize] ^ state[7];",
  "            whole_matrix[((n_cols - _i - 1) as i64 * BLOCKLENINT64 + row * row_len_int64 + 8) as usize] =",
  "                whole_matrix[(_i as i64 * BLOCKLENINT64 + prev * row_len_int64 + 8) as usize] ^ state[8];",
  "            whole_matrix[((n_cols - _i - 1) as i64 * BLOCKLENINT64 + row * row_len_int64 + 9) as usize] =",
  "                whole_matrix[(_i as i64 * BLOCKLENINT64 + prev * row_len_int64 + 9) as usize] ^ state[9];",
  "            whole_matrix[((n_cols - _i - 1) as i64 * BLOCKLENINT64 + row * row_len_int64 + 10) as usize] =",
  "                whole_matrix[(_i as i64 * BLOCKLENINT64 + prev * row_len_int64 + 10) as usize] ^ state[10];",
  "            whole_matrix[((n_cols - _i - 1) as i64 * BLOCKLENINT64 + row * row_len_int64 + 11) as usize] =",
  "                whole_matrix[(_i as i64 * BLOCKLENINT64 + prev * row_len_int64 + 11) as usize] ^ state[11];",
  "",
  "            //M[row*][col] = M[row*][col] XOR rotW(rand)",
  "            whole_matrix[(_i as i64 * BLOCKLENINT64 + rowa * row_len_int64) as usize] ^= state[11];",
  "            whole_matrix[(_i as i64 * BLOCKLENINT64 + rowa * row_len_int64 + 1) as usize] ^= state[0];",
  "            whole_matrix[(_i as i64 * BLOCKLENINT64 + rowa * row_len_int64 + 2) as usize] ^= state[1];",
  "            whole_matrix[(_i as i64 * BLOCKLENINT64 + rowa * row_len_int64 + 3) as usize] ^= state[2];",
  "            whole_matrix[(_i as i64 * BLOCKLENINT64 + rowa * row_len_int64 + 4) as usize] ^= state[3];",
  "            whole_matrix[(_i as i64 * BLOCKLENINT64 + rowa * row_len_int64 + 5) as usize] ^= state[4];",
  "            whole_matrix[(_i as i64 * BLOCKLENINT64 + rowa * row_len_int64 + 6) as usize] ^= state[5];",
  "            whole_matrix[(_i as i64 * BLOCKLENINT64 + rowa * row_len_int64 + 7) as usize] ^= state[6];",
  "            whole_matrix[(_i as i64 * BLOCKLENINT64 + rowa * row_len_int64 + 8) as usize] ^= state[7];",
  "            whole_matrix[(_i as i64 * BLOCKLENINT64 + rowa * row_len_int64 + 9) as usize] ^= state[8];",
  "            whole_matrix[(_i as i64 * BLOCKLENINT64 + rowa * row_len_int64 + 10) as usize] ^= state[9];",
  "            whole_matrix[(_i as i64 * BLOCKLENINT64 + rowa * row_len_int64 + 11) as usize] ^= state[10];",
  "        }",
  "",
  "        //updates the value of row* (deterministically picked during Setup))",
  "        rowa = (rowa + step) & (window - 1);",
  "        //update prev: it now points to the last row ever computed",
  "        prev = row;",
  "        //updates row: goes to the next row to be computed",
  "        row += 1;",
  "",
  "        //Checks if all rows in the window where visited.",
  "        if rowa == 0 {",
  "            step = window + gap; //changes the step: approximately doubles its value",
  "            window *= 2; //doubles the size of the re-visitation window",
  "            gap = -gap; //inverts the modifier to the step",
  "        }",
  "    }",
  "    //==========================================================================/",
  "",
  "    //============================ Wandering Phase =============================//",
  "    row = 0; //Resets the visitation to the first row of the memory matrix",
  "    for _tau in 1..=time_cost {",
  "        //Step is approximately half the number of all rows of the memory matrix for an odd _tau; otherwise, it is -1",
  "        step = n_rows as i64 / 2 - 1;",
  "        if _tau % 2 == 0 {",
  "            step = -1;",
  "        }",
  "",
  "        loop {",
  "            //Selects a pseudorandom index row*",
  "            //------------------------------------------------------------------------------------------",
  "            //rowa = ((unsigned int)state[0]) & (n_rows-1);	//(USE THIS IF n_rows IS A POWER OF 2)",
  r#"            rowa = (state[0] & (n_rows - 1)) as i64; //(USE THIS FOR THE "GENERIC" CASE)"#,
  "            //------------------------------------------------------------------------------------------",
  "",
  "            //Performs a reduced-round duplexing operation over M[row*] XOR M[prev], updating both M[row*] and M[row]",
  "            //reducedDuplexRow(state, memMatrix[prev], memMatrix[rowa], memMatrix[row], n_cols)",
  "            for _i in 0..n_cols {",
  "                state[0] ^= whole_matrix[(_i as i64 * BLOCKLENINT64 + prev * row_len_int64) as usize]",
  "                    .wrapping_add(",
  "                        whole_matrix[(_i as i64 * BLOCKLENINT64 + rowa * row_len_int64) as usize],",
  "                    );",
  "                state[1] ^= whole_matrix[(_i as i64 * BLOCKLENINT64 + prev * row_len_int64 + 1) as usize]",
  "                    .wrapping_add(",
  "                        whole_matrix[(_i as i64 * BLOCKLENINT64 + rowa * row_len_int64 + 1) as usize],",
  "                    );",
  "                state[2] ^= whole_matrix[(_i as i64 * BLOCKLENINT64 + prev * row_len_int64 + 2) as usize]",
  "                    .wrapping_add(",
  "                        whole_matrix[(_i as i64 * BLOCKLENINT64 + rowa * row_len_int64 + 2) as usize],",
  "                    );",
  "                state[3] ^= whole_matrix[(_i as i64 * BLOCKLENINT64 + prev * row_len_int64 + 3) as usize]",
  "                    .wrapping_add(",
  "                        whole_matrix[(_i as i64 * BLOCKLENINT64 + rowa * row_len_int64 + 3) as usize],",
  "                    );",
  "                state[4] ^= whole_matrix[(_i as i64 * BLOCKLENINT64 + prev * row_len_int64 + 4) as usize]",
  "                    .wrapping_add(",
  "                        whole_matrix[(_i as i64 * BLOCKLENINT64 + rowa * row_len_int64 + 4) as usize],",
  "                    );",
  "                state[5] ^= whole_matrix[(_i as i64 * BLOCKLENINT64 + prev * row_len_int64 + 5) as usize]",
  "                    .wrapping_add(",
  "                        whole_matrix[(_i as i64 * BLOCKLENINT64 + rowa * row_len_int64 + 5) as usize],",
  "                    );",
  "                state[6] ^= whole_matrix[(_i as i64 * BLOCKLENINT64 + prev * row_len_int64 + 6) as usize]",
  "                    .wrapping_add(",
  "                        whole_matrix[(_i as i64 * BLOCKLENINT64 + rowa * row_len_int64 + 6) as usize],",
  "                    );",
  "                state[7] ^= whole_matrix[(_i as i64 * BLOCKLENINT64 + prev * row_len_int64 + 7) as usize]",
  "                    .wrapping_add(",
  "                        whole_matrix[(_i as i64 * BLOCKLENINT64 + rowa * row_len_int64 + 7) as usize],",
  "                    );",
  "                state[8] ^= whole_matrix[(_i as i64 * BLOCKLENINT64 + prev * row_len_int64 + 8) as usize]",
  "                    .wrapping_add(",
  "                        whole_matrix[(_i as i64 * BLOCKLENINT64 + rowa * row_len_int64 + 8) as usize],",
  "                    );",
  "                state[9] ^= whole_matrix[(_i as i64 * BLOCKLENINT64 + prev * row_len_int64 + 9) as usize]",
  "                    .wrapping_add(",
  "                        whole_matrix[(_i as i64 * BLOCKLENINT64 + rowa * row_len_int64 + 9) as usize],",
  "                    );",
  "                state[10] ^= whole_matrix",
  "                    [(_i as i64 * BLOCKLENINT64 + prev * row_len_int64 + 10) as usize]",
  "                    .wrapping_add(",
  "                        whole_matrix[(_i as i64 * BLOCKLENINT64 + rowa * row_len_int64 + 10) as usize],",
  "                    );",
  "                state[11] ^= whole_matrix",
  "                    [(_i as i64 * BLOCKLENINT64 + prev * row_len_int64 + 11) as usize]",
  "                    .wrapping_add(",
  "                        whole_matrix[(_i as i64 * BLOCKLENINT64 + rowa * row_len_int64 + 11) as usize],",
  "                    );",
  "",
  "                //Applies the reduced-round transformation f to the sponge's state",
  "                state = reduced_blake2b_lyra(state);",
  "",
  "                //M[rowOut][col] = M[rowOut][col] XOR rand",
  "                whole_matrix[(_i as i64 * BLOCKLENINT64 + row * row_len_int64) as usize] ^= state[0];",
  "                whole_matrix[(_i as i64 * BLOCKLENINT64 + row * row_len_int64 + 1) as usize] ^= state[1];",
  "                whole_matrix[(_i as i64 * BLOCKLENINT64 + row * row_len_int64 + 2) as usize] ^= state[2];",
  "                whole_matrix[(_i as i64 * BLOCKLENINT64 + row * row_len_int64 + 3) as usize] ^= state[3];",
  "                whole_matrix[(_i as i64 * BLOCKLENINT64 + row * row_len_int64 + 4) as usize] ^= state[4];",
  "                whole_matrix[(_i as i64 * BLOCKLENINT64 + row * row_len_int64 + 5) as usize] ^= state[5];",
  "                whole_matrix[(_i as i64 * BLOCKLENINT64 + row * row_len_int64 + 6) as usize] ^= state[6];",
  "                whole_matrix[(_i as i64 * BLOCKLENINT64 + row * row_len_int64 + 7) as usize] ^= state[7];",
  "                whole_matrix[(_i as i64 * BLOCKLENINT64 + row * row_len_int64 + 8) as usize] ^= state[8];",
  "                whole_matrix[(_i as i64 * BLOCKLENINT64 + row * row_len_int64 + 9) as usize] ^= state[9];",
  "                whole_matrix[(_i as i64 * BLOCKLENINT64 + row * row_len_int64 + 10) as usize] ^= state[10];",
  "                whole_matrix[(_i as i64 * BLOCKLENINT64 + row * row_len_int64 + 11) as usize] ^= state[11];",
  "",
  "                //M[rowInOut][col] = M[rowInOut][col] XOR rotW(rand)",
  "                whole_matrix[(_i as i64 * BLOCKLENINT64 + rowa * row_len_int64) as usize] ^= state[11];",
  "                whole_matrix[(_i as i64 * BLOCKLENINT64 + rowa * row_len_int64 + 1) as usize] ^= state[0];",
  "                whole_matrix[(_i as i64 * BLOCKLENINT64 + rowa * row_len_int64 + 2) as usize] ^= state[1];",
  "                whole_matrix[(_i as i64 * BLOCKLENINT64 + rowa * row_len_int64 + 3) as usize] ^= state[2];",
  "                whole_matrix[(_i as i64 * BLOCKLENINT64 + rowa * row_len_int64 + 4) as usize] ^= state[3];",
  "                whole_matrix[(_i as i64 * BLOCKLENINT64 + rowa * row_len_int64 + 5) as usize] ^= state[4];",
  "                whole_matrix[(_i as i64 * BLOCKLENINT64 + rowa * row_len_int64 + 6) as usize] ^= state[5];",
  "                whole_matrix[(_i as i64 * BLOCKLENINT64 + rowa * row_len_int64 + 7) as usize] ^= state[6];",
  "                whole_matrix[(_i as i64 * BLOCKLENINT64 + rowa * row_len_int64 + 8) as usize] ^= state[7];",
  "                whole_matrix[(_i as i64 * BLOCKLENINT64 + rowa * row_len_int64 + 9) as usize] ^= state[8];",
  "                whole_matrix[(_i as i64 * BLOCKLENINT64 + rowa * row_len_int64 + 10) as usize] ^= state[9];",
  "                whole_matrix[(_i as i64 * BLOCKLENINT64 + rowa * row_len_int64 + 11) as usize] ^= state[10];",
  "            }",
  "",
  "            //update prev: it now points to the last row ever computed",
  "            prev = row;",
  "",
  "            //updates row: goes to the next row to be computed",
  "            //------------------------------------------------------------------------------------------",
  "            //row = (row + step) & (n_rows-1);	//(USE THIS IF n_rows IS A POWER OF 2)",
  r#"            row = (row + step) & (n_rows as i64 -1); //(USE THIS FOR THE "GENERIC" CASE)"#,
  "            //------------------------------------------------------------------------------------------",
  "            if row == 0 {",
  "                break;",
  "            }",
  "        }",
  "    }",
  "    //==========================================================================/",
  "",
  "    //============================ Wrap-up Phase ===============================//",
  "    //Absorbs the last block of the memory matrix",
  "    let (_, mut _right) = &whole_matrix.split_at((rowa * row_len_int64) as usize);",
  "    state = absorb_block(state, _right.to_vec());",
  "    //Squeezes the key",
  "    squeeze(state, k)",
  "    //==========================================================================/",
  "}",
  "",
  "/// Returns the calculation result of lyra2.",
  "/// # Examples",
  "///",
  "/// ```",
  r#"/// let base1 = "abc".as_bytes().to_vec();"#,
  "/// let lyra2_result1 = lyra2::lyra2::sum(base1);",
  "/// assert_eq!(",
  r#"///     "8f63758bd178f014ea3fd4df09ff0a61646dc574a0b6bcf2890ec529a6a7360c","#,
  "///     lyra2_result1",
  "///         .iter()",
  r#"///         .map(|n| format!("{:02x}", n))"#,
  "///         .collect::<String>()",
  "/// );",
  "/// ```",
  "pub fn sum(input: Vec<u8>) -> Vec<u8> {",
  "    let input2 = input.clone();",
  "    lyra2(32, input, input2, 1, 4, 4)",
  "}",
  "",
  "#[test]",
  "fn lyra2_hash_cal() {",
  r#"    let base1 = "abc".as_bytes().to_vec();"#,
  "    let lyra2_result1 = sum(base1);",
  "    assert_eq!(",
  r#"        "8f63758bd178f014ea3fd4df09ff0a61646dc574a0b6bcf2890ec529a6a7360c","#,
  "        lyra2_result1",
  "            .iter()",
  r#"            .map(|n| format!("{:02x}", n))"#,
  "            .collect::<String>()",
  "    );",
  "",
  r#"    let base3 = "脇山珠美ちゃんかわいい！".as_bytes().to_vec();"#,
  "    let base4 = base3.clone();",
  "    let lyra2_result2 = lyra2(48, base3, base4, 1, 3, 4);",
  r#"    assert_eq!("c937cfe0ee21a8e7c1d1871245ea717457edbee2de8bf544e50f807349a3460c52cb6bb10bd0b7328504bc2ad984e1f3", lyra2_result2.iter().map(|n| format!("{:02x}", n)).collect::<String>());"#,
  "",
  r#"    let base5 = "😀😁😂".as_bytes().to_vec();"#,
  "    let base6 = base5.clone();",
  "    let lyra2_result3 = lyra2(16, base5, base6, 1, 4, 2);",
  "    assert_eq!(",
  r#"        "372557ef600c8c76bedd91ecd5a01f45","#,
  "        lyra2_result3",
  "            .iter()",
  r#"            .map(|n| format!("{:02x}", n))"#,
  "            .collect::<String>()",
  "    );",
  "}",
  ""]

/-- /repo/src/lyra2mod/mod.rs -/
def lyra2mod : List String := [
  "use crate::utils::read_u64_le;",
  "",
  "const BLAKE2BIV: [u64; 8] = [",
  "    0x6a09_e667_f3bc_c908,",
  "    0xbb67_ae85_84ca_a73b,",
  "    0x3c6e_f372_fe94_f82b,",
  "    0xa54f_f53a_5f1d_36f1,",
  "    0x510e_527f_ade6_82d1,",
  "    0x9b05_688c_2b3e_6c1f,",
  "    0x1f83_d9ab_fb41_bd6b,",
  "    0x5be0_cd19_137e_2179,",
  "];",
  "",
  "const BLOCKLENINT64: i64 = 12; //Block length: 768 bits (=96 bytes, =12 uint64_t)",
  "const BLOCKLENBYTES: i64 = BLOCKLENINT64 * 8; //Block length, in bytes",
  "const BLOCKLENBLAKE2SAFEINT64: i64 = 8; //512 bits (=64 bytes, =8 uint64_t)",
  "const BLOCKLENBLAKE2SAFEBYTES: i64 = BLOCKLENBLAKE2SAFEINT64 * 8; //same as above, in bytes",
  "",
  "/*Blake2b's rotation*/",
  "fn rotr64(w: u64, c: u8) -> u64 {",
  "    (w >> c) | (w << (64 - c))",
  "}",
  "",
  "/*g is Blake2b's G function*/",
  "fn g(a: u64, b: u64, c: u64, d: u64) -> [u64; 4] {",
  "    let mut abcd: [u64; 4] = [a, b, c, d];",
  "    abcd[0] = abcd[0].wrapping_add(abcd[1]);",
  "    abcd[3] = rotr64(abcd[3] ^ abcd[0], 32);",
  "    abcd[2] = abcd[2].wrapping_add(abcd[3]);",
  "    abcd[1] = rotr64(abcd[1] ^ abcd[2], 24);",
  "    abcd[0] = abcd[0].wrapping_add(abcd[1]);",
  "    abcd[3] = rotr64(abcd[3] ^ abcd[0], 16);",
  "    abcd[2] = abcd[2].wrapping_add(abcd[3]);",
  "    abcd[1] = rotr64(abcd[1] ^ abcd[2], 63);",
  "    abcd",
  "}",
  "",
  "/*round_lyra is One Round of the Blake2b's compression function*/",
  "fn round_lyra(mut v: [u64; 16]) -> [u64; 16] {",
  "    let mut abcd = g(v[0], v[4], v[8], v[12]);",
  "    v[0] = abcd[0];",
  "    v[4] = abcd[1];",
  "    v[8] = abcd[2];",
  "    v[12] = abcd[3];",
  "    abcd = g(v[1], v[5], v[9], v[13]);",
  "    v[1] = abcd[0];",
  "    v[5] = abcd[1];",
  "    v[9] = abcd[2];",
  "    v[13] = abcd[3];",
  "    abcd = g(v[2], v[6], v[10], v[14]);",
  "    v[2] = abcd[0];",
  "    v[6] = abcd[1];",
  "    v[10] = abcd[2];",
  "    v[14] = abcd[3];",
  "    abcd = g(v[3], v[7], v[11], v[15]);",
  "    v[3] = abcd[0];",
  "    v[7] = abcd[1];",
  "    v[11] = abcd[2];",
  "    v[15] = abcd[3];",
  "    abcd = g(v[0], v[5], v[10], v[15]);",
  "    v[0] = abcd[0];",
  "    v[5] = abcd[1];",
  "    v[10] = abcd[2];",
  "    v[15] = abcd[3];",
  "    abcd = g(v[1], v[6], v[11], v[12]);",
  "    v[1] = abcd[0];",
  "    v[6] = abcd[1];",
  "    v[11] = abcd[2];",
  "    v[12] = abcd[3];",
  "    abcd = g(v[2], v[7], v[8], v[13]);",
  "    v[2] = abcd[0];",
  "    v[7] = abcd[1];",
  "    v[8] = abcd[2];",
  "    v[13] = abcd[3];",
  "    abcd = g(v[3], v[4], v[9], v[14]);",
  "    v[3] = abcd[0];",
  "    v[4] = abcd[1];",
  "    v[9] = abcd[2];",
  "    v[14] = abcd[3];",
  "    v",
  "}",
  "",
  "/**",
  " * init_state Initializes the Sponge State. The first 512 bits are set to zeros and the remainder",
  " * receive Blake2b's IV as per Blake2b's specification. <b>Note:</b> Even though sponges",
  " * typically have their internal state initialized with zeros, Blake2b's G function",
  " * has a fixed point: if the internal state and message are both filled with zeros. the",
  " * resulting permutation will always be a block filled with zeros; this happens because",
  " * Blake2b does not use the constants originally employed in Blake2 inside its G function,",
  " * relying on the IV for avoiding possible fixed points.",
  " *",
  " * @param state         The 1024-bit array to be initialized",
  " */",
  "fn init_state() -> [u64; 16] {",
  "    let mut s: [u64; 16] = [0, 0, 0, 0, 0, 0, 0, 0, 0, 0, 0, 0, 0, 0, 0, 0];",
  "    s[8] = BLAKE2BIV[0];",
  "    s[9] = BLAKE2BIV[1];",
  "    s[10] = BLAKE2BIV[2];",
  "    s[11] = BLAKE2BIV[3];",
  "    s[12] = BLAKE2BIV[4];",
  "    s[13] = BLAKE2BIV[5];",
  "    s[14] = BLAKE2BIV[6];",
  "    s[15] = BLAKE2BIV[7];",
  "    s",
  "}",
  "",
  "/**",
  " * blake2b_lyra Execute Blake2b's G function, with all 12 rounds.",
  " *",
  " * @param v     A 1024-bit (16 uint64_t) array to be processed by Blake2b's G function",
  " */",
  "fn blake2b_lyra(mut v: [u64; 16]) -> [u64; 16] {",
  "    v = round_lyra(v);",
  "    v = round_lyra(v);",
  "    v = round_lyra(v);",
  "    v = round_lyra(v);",
  "    v = round_lyra(v);",
  "    v = round_lyra(v);",
  "    v = round_lyra(v);",
  "    v = round_lyra(v);",
  "    v = round_lyra(v);",
  "    v = round_lyra(v);",
  "    v = round_lyra(v);",
  "    v = round_lyra(v);",
  "    v",
  "}",
  "",
  "/**",
  " * reduced_blake2b_lyra Executes a reduced version of Blake2b's G function with only one round",
  " * @param v     A 1024-bit (16 uint64_t) array to be processed by Blake2b's G function",
  " */",
  "fn reduced_blake2b_lyra(mut v: [u64; 16]) -> [u64; 16] {",
  "    v = round_lyra(v);",
  "    v",
  "}",
  "",
  "/**",
  " * squeeze Performs a squeeze operation, using Blake2b's G function as the",
  " * internal permutation",
  " *",
  " * @param state      The current state of the sponge",
  " * @param out        Array that will receive the data squeezed",
  r#" * @param len        The number of bytes to be squeezed into the "out" array"#,
  " */",
  "fn squeeze(mut state: [u64; 16], output_size: u64) -> Vec<u8> {",
  "    let mut tmp = vec![];",
  "    let mut out = vec![0; output_size as usize];",
  "    let mut _j = 0;",
  "    let jmax = output_size as i64 / BLOCKLENBYTES + 1;",
  "    for _j in 0..jmax {",
  "        for _i in 0..BLOCKLENINT64 {",
  "            tmp.extend_from_slice(&state[_i as usize].to_le_bytes());",
  "        }",
  "        //be care in case of len(out[i:])<len(tmp)",
  "        out[..output_size as usize].clone_from_slice(&tmp[..output_size as usize]);",
  "        state = blake2b_lyra(state);",
  "    }",
  "    out",
  "}",
  "",
  "/**",
  " * absorb_block Performs an absorb operation for a single block (BLOCK_LEN_INT64 words",
  " * of type uint64_t), using Blake2b's G function as the internal permutation",
  " *",
  " * @param s    The current state of the sponge",
  " * @param w    The block to be absorbed (BLOCK_LEN_INT64 words)",
  " */",
  "fn absorb_block(mut s: [u64; 16], w: Vec<u64>) -> [u64; 16] {",
  r#"    //XORs the first BLOCK_LEN_INT64 words of "in" with the current state"#,
  "    s[0] ^= w[0];",
  "    s[1] ^= w[1];",
  "    s[2] ^= w[2];",
  "    s[3] ^= w[3];",
  "    s[4] ^= w[4];",
  "    s[5] ^= w[5];",
  "    s[6] ^= w[6];",
  "    s[7] ^= w[7];",
  "    s[8] ^= w[8];",
  "    s[9] ^= w[9];",
  "    s[10] ^= w[10];",
  "    s[11] ^= w[11];",
  "",
  "    //Applies the transformation f to the sponge's state",
  "    s = blake2b_lyra(s);",
  "    s",
  "}",
  "",
  "/**",
  " * absorb_block_blake2_safe  Performs an absorb operation for a single block (BLOCK_LEN_BLAKE2_SAFE_INT64",
  " * words of type uint64_t), using Blake2b's G function as the internal permutation",
  " *",
  " * @param s    The current state of the sponge",
  " * @param w    The block to be absorbed (BLOCK_LEN_BLAKE2_SAFE_INT64 words)",
  " */",
  "fn absorb_block_blake2_safe(mut s: [u64; 16], w: Vec<u64>) -> [u64; 16] {",
  r#"    //XORs the first BLOCK_LEN_BLAKE2_SAFE_INT64 words of "in" with the current state"#,
  "    s[0] ^= w[0];",
  "    s[1] ^= w[1];",
  "    s[2] ^= w[2];",
  "    s[3] ^= w[3];",
  "    s[4] ^= w[4];",
  "    s[5] ^= w[5];",
  "    s[6] ^= w[6];",
  "    s[7] ^= w[7];",
  "    //Applies the transformation f to the sponge's state",
  "    s = blake2b_lyra(s);",
  "    s",
  "}",
  "",
  "// lyra2 Executes Lyra2 based on the G function from Blake2b. This version supports salts and passwords",
  "// whose combined length is smaller than the size of the memory matrix, (i.e., (n_rows x n_cols x b) bits,",
  r#"// where "b" is the underlying sponge's bitrate). In this implementation, the "basil" is composed by all"#,
  r#"// integer parameters (treated as type "unsigned int") in the order they are provided, plus the value"#,
  "// of n_cols, (i.e., basil = kLen || pwdlen || saltlen || timeCost || n_rows || n_cols).",
  "//",
  "// @param K The derived key to be output size by the algorithm",
  "// @param pwd User password",
  "// @param salt Salt",
  "// @param time_cost Parameter to determine the processing time (T)",
  "// @param n_rows Number or rows of the memory matrix (R)",
  "// @param n_cols Number of columns of the memory matrix (C)",
  "pub fn lyra2mod(",
  "    k: u64,",
  "    pwd: Vec<u8>,",
  "    salt: Vec<u8>,",
  "    time_cost: u64,",
  "    n_rows: u64,",
  "    n_cols: u64,",
  ") -> Vec<u8> {",
  "    //============================= parameter check ============================//",
  "    if time_cost < 1 {panic!()};",
  "    if n_rows < 3 {panic!()};",
  "    //==========================================================================/",
  "",
  "    //============================= Basic variables ============================//",
  "    let mut row: i64 = 2; //index of row to be processed",
  "    let mut prev: i64 = 1; //index of prev (last row ever computed/modified)",
  "    let mut rowa: i64 = 0; //index of row* (a previous row, deterministically picked during Setup and randomly picked while Wandering)",
  "    let mut _tau: i64 = 1; //Time Loop iterator",
  "    let mut step: i64 = 1; //Visitation step (used during Setup and Wandering phases)",
  "    let mut window: i64 = 2; //Visitation window (used to define which rows can be revisited during Setup)",
  "    let mut gap: i64 = 1; //Modifier to the step, assuming the values 1 or -1",
  "    let mut _i: i64 = 0; //auxiliary iteration counter",
  "    //==========================================================================/",
  "",
  "    //========== Initializing the Memory Matrix and pointers to it =============//",
  "    //Tries to allocate enough space for the whole memory matrix",
  "",
  "    let row_len_int64: i64 = BLOCKLENINT64 * n_cols as i64;",
  "    let mut _i: i64 = n_rows as i64 * row_len_int64;",
  "    let mut whole_matrix: Vec<u64> = vec![0; _i as usize];",
  "    whole_matrix.resize(_i as usize, 0);",
  "",
  "    //==========================================================================/",
  "",
  "    //============= Getting the password + salt + basil padded with 10*1 ===============//",
  "    //OBS.:The memory matrix will temporarily hold the password: not for saving memory,",
  "    //but this ensures that the password copied locally will be overwritten as soon as possible",
  "",
  "    //First, we clean enough blocks for the password, salt, basil and padding",
  "    let n_blocks_input: i64 =",
  "        ((salt.len() + pwd.len() + 6 * 8) as i64 / BLOCKLENBLAKE2SAFEBYTES) + 1;",
  "    let mut ptr_byte: usize = 0; // (byte*) whole_matrix;",
  "",
  "    // Prepends the password",
  "    for j in 0..pwd.len() / 8 {",
  "        let start = 8 * j;",
  "        let end = start + 8;",
  "        whole_matrix[ptr_byte + j] = read_u64_le(&pwd[start..end]);",
  "    }",
  "",
  "    ptr_byte += (pwd.len() as u64 / 8) as usize;",
  "",
  "    // Concatenates the salt",
  "    for j in 0..salt.len() / 8 {",
  "        let start = 8 * j;",
  "        let end = start + 8;",
  "        whole_matrix[ptr_byte + j] = read_u64_le(&salt[start..end]);",
  "    }",
  "",
  "    ptr_byte += (salt.len() as u64 / 8) as usize;",
  "",
  "    //Concatenates the basil: every integer passed as parameter, in the order they are provided by the interface",
  "    whole_matrix[ptr_byte] = k;",
  "    ptr_byte += 1;",
  "    whole_matrix[ptr_byte] = pwd.len() as u64;",
  "    ptr_byte += 1;",
  "    whole_matrix[ptr_byte] = salt.len() as u64;",
  "    ptr_byte += 1;",
  "    whole_matrix[ptr_byte] = time_cost;",
  "    ptr_byte += 1;",
  "    whole_matrix[ptr_byte] = n_rows;",
  "    ptr_byte += 1;",
  "    whole_matrix[ptr_byte] = n_cols;",
  "    ptr_byte += 1;",
  "",
  "    //Now comes the padding",
  "    whole_matrix[ptr_byte] = 0x80; //first byte of padding: right after the password",
  "                                   //resets the pointer to the start of the memory matrix",
  "    ptr_byte = ((n_blocks_input * BLOCKLENBLAKE2SAFEBYTES) / 8 - 1) as usize; //sets the pointer to the correct position: end of incomplete block",
  "    whole_matrix[ptr_byte] ^= 0x0100_0000_0000_0000; //last byte of padding: at the end of the last incomplete block00",
  "    //==========================================================================/",
  "",
  "    //======================= Initializing the Sponge State ====================//",
  "    //Sponge state: 16 uint64_t, BLOCK_LEN_INT64 words of them for the bitrate (b) and the remainder for the capacity (c)",
  "    let mut state = init_state();",
  "    //==========================================================================/",
  "",
  "    //================================ Setup Phase =============================//",
  "    //Absorbing salt, password and basil: this is the only place in which the block length is hard-coded to 512 bits",
  "    let mut ptr_word = 0;",
  "    for _i in 0..n_blocks_input {",
  "        let (_, mut _right) = &whole_matrix.split_at(ptr_word);",
  "        state = absorb_block_blake2_safe(state, _right.to_vec()); //absorbs each block of pad(pwd || salt || basil)",
  "        ptr_word += BLOCKLENBLAKE2SAFEINT64 as usize; //goes to next block of pad(pwd || salt || basil)",
  "    }",
  "",
  "    //Initializes M[0] and M[1]",
  "    //reducedSqueezeRow0",
  "    //The locally copied password is most likely overwritten here",
  "    let mut ptr = (n_cols as i64 - 1) * BLOCKLENINT64;",
  "    //M[row][C-1-col] = H.reduced_squeeze()",
  "    for _i in 0..n_cols {",
  "        //In Lyra2: pointer to M[0][C-1]",
  "        whole_matrix[ptr as usize] = state[0];",
  "        whole_matrix[(ptr + 1) as usize] = state[1];",
  "        whole_matrix[(ptr + 2) as usize] = state[2];",
  "        whole_matrix[(ptr + 3) as usize] = state[3];",
  "        whole_matrix[(ptr + 4) as usize] = state[4];",
  "        whole_matrix[(ptr + 5) as usize] = state[5];",
  "        whole_matrix[(ptr + 6) as usize] = state[6];",
  "        whole_matrix[(ptr + 7) as usize] = state[7];",
  "        whole_matrix[(ptr + 8) as usize] = state[8];",
  "        whole_matrix[(ptr + 9) as usize] = state[9];",
  "        whole_matrix[(ptr + 10) as usize] = state[10];",
  "        whole_matrix[(ptr + 11) as usize] = state[11];",
  "",
  "        //Goes to next block (column) that will receive the squeezed data",
  "        ptr = ptr.wrapping_sub(BLOCKLENINT64);",
  "",
  "        //Applies the reduced-round transformation f to the sponge's state",
  "        state = reduced_blake2b_lyra(state);",
  "    }",
  "",
  "    //reducedDuplexRow1",
  "    for _i in 0..n_cols {",
  r#"        //Absorbing "M[prev][col]""#,
  "        state[0] ^= whole_matrix[(_i as i64 * BLOCKLENINT64) as usize];",
  "        state[1] ^= whole_matrix[(_i as i64 * BLOCKLENINT64 + 1) as usize];",
  "        state[2] ^= whole_matrix[(_i as i64 * BLOCKLENINT64 + 2) as usize];",
  "        state[3] ^= whole_matrix[(_i as i64 * BLOCKLENINT64 + 3) as usize];",
  "        state[4] ^= whole_matrix[(_i as i64 * BLOCKLENINT64 + 4) as usize];",
  "        state[5] ^= whole_matrix[(_i as i64 * BLOCKLENINT64 + 5) as usize];",
  "        state[6] ^= whole_matrix[(_i as i64 * BLOCKLENINT64 + 6) as usize];",
  "        state[7] ^= whole_matrix[(_i as i64 * BLOCKLENINT64 + 7) as usize];",
  "        state[8] ^= whole_matrix[(_i as i64 * BLOCKLENINT64 + 8) as usize];",
  "        state[9] ^= whole_matrix[(_i as i64 * BLOCKLENINT64 + 9) as usize];",
  "        state[10] ^= whole_matrix[(_i as i64 * BLOCKLENINT64 + 10) as usize];",
  "        state[11] ^= whole_matrix[(_i as i64 * BLOCKLENINT64 + 11) as usize];",
  "",
  "        //Applies the reduced-round transformation f to the sponge's state",
  "        state = reduced_blake2b_lyra(state);",
  "",
  "        //M[row][C-1-col] = M[prev][col] XOR rand",
  "        whole_matrix[((n_cols - _i - 1) as i64 * BLOCKLENINT64 + row_len_int64) as usize] =",
  "            whole_matrix[(_i as i64 * BLOCKLENINT64) as usize] ^ state[0];",
  "        whole_matrix[((n_cols - _i - 1) as i64 * BLOCKLENINT64 + row_len_int64 + 1) as usize] =",
  "            whole_matrix[(_i as i64 * BLOCKLENINT64 + 1) as usize] ^ state[1];",
  "        whole_matrix[((n_cols - _i - 1) as i64 * BLOCKLENINT64 + row_len_int64 + 2) as usize] =",
  "            whole_matrix[(_i as i64 * BLOCKLENINT64 + 2) as usize] ^ state[2];",
  "        whole_matrix[((n_cols - _i - 1) as i64 * BLOCKLENINT64 + row_len_int64 + 3) as usize] =",
  "            whole_matrix[(_i as i64 * BLOCKLENINT64 + 3) as usize] ^ state[3];",
  "        whole_matrix[((n_cols - _i - 1) as i64 * BLOCKLENINT64 + row_len_int64 + 4) as usize] =",
  "            whole_matrix[(_i as i64 * BLOCKLENINT64 + 4) as usize] ^ state[4];",
  "        whole_matrix[((n_cols - _i - 1) as i64 * BLOCKLENINT64 + row_len_int64 + 5) as usize] =",
  "            whole_matrix[(_i as i64 * BLOCKLENINT64 + 5) as usize] ^ state[5];",
  "        whole_matrix[((n_cols - _i - 1) as i64 * BLOCKLENINT64 + row_len_int64 + 6) as usize] =",
  "            whole_matrix[(_i as i64 * BLOCKLENINT64 + 6) as usize] ^ state[6];",
  "        whole_matrix[((n_cols - _i - 1) as i64 * BLOCKLENINT64 + row_len_int64 + 7) as usize] =",
  "            whole_matrix[(_i as i64 * BLOCKLENINT64 + 7) as usize] ^ state[7];",
  "        whole_matrix[((n_cols - _i - 1) as i64 * BLOCKLENINT64 + row_len_int64 + 8) as usize] =",
  "            whole_matrix[(_i as i64 * BLOCKLENINT64 + 8) as usize] ^ state[8];",
  "        whole_matrix[((n_cols - _i - 1) as i64 * BLOCKLENINT64 + row_len_int64 + 9) as usize] =",
  "            whole_matrix[(_i as i64 * BLOCKLENINT64 + 9) as usize] ^ state[9];",
  "        whole_matrix[((n_cols - _i - 1) as i64 * BLOCKLENINT64 + row_len_int64 + 10) as usize] =",
  "            whole_matrix[(_i as i64 * BLOCKLENINT64 + 10) as usize] ^ state[10];",
  "        whole_matrix[((n_cols - _i - 1) as i64 * BLOCKLENINT64 + row_len_int64 + 11) as usize] =",
  "            whole_matrix[(_i as i64 * BLOCKLENINT64 + 11) as usize] ^ state[11];",
  "    }",
  "",
  "    let mut _x: i64 = row;",
  "    for _x in _x..n_rows as i64 {",
  "        //M[row] = rand; //M[row*] = M[row*] XOR rotW(rand)",
  "        //reducedDuplexRowSetup",
  "        for _i in 0..n_cols {",
  r#"            //Absorbing "M[prev] [+] M[row*]""#,
  "            state[0] ^= whole_matrix[(_i as i64 * BLOCKLENINT64 + prev * row_len_int64) as usize]",
  "                .wrapping_add(",
  "                    whole_matrix[(_i as i64 * BLOCKLENINT64 + rowa * row_len_int64) as usize],",
  "                );",
  "            state[1] ^= whole_matrix[(_i as i64 * BLOCKLENINT64 + prev * row_len_int64 + 1) as usize]",
  "                .wrapping_add(",
  "                    whole_matrix[(_i as i64 * BLOCKLENINT64 + rowa * row_len_int64 + 1) as usize],",
  "                );",
  "            state[2] ^= whole_matrix[(_i as i64 * BLOCKLENINT64 + prev * row_len_int64 + 2) as usize]",
  "                .wrapping_add(",
  "                    whole_matrix[(_i as i64 * BLOCKLENINT64 + rowa * row_len_int64 + 2) as usize],",
  "                );",
  "            state[3] ^= whole_matrix[(_i as i64 * BLOCKLENINT64 + prev * row_len_int64 + 3) as usize]",
  "                .wrapping_add(",
  "                    whole_matrix[(_i as i64 * BLOCKLENINT64 + rowa * row_len_int64 + 3) as usize],",
  "                );",
  "            state[4] ^= whole_matrix[(_i as i64 * BLOCKLENINT64 + prev * row_len_int64 + 4) as usize]",
  "                .wrapping_add(",
  "                    whole_matrix[(_i as i64 * BLOCKLENINT64 + rowa * row_len_int64 + 4) as usize],",
  "                );",
  "            state[5] ^= whole_matrix[(_i as i64 * BLOCKLENINT64 + prev * row_len_int64 + 5) as usize]",
  "                .wrapping_add(",
  "                    whole_matrix[(_i as i64 * BLOCKLENINT64 + rowa * row_len_int64 + 5) as usize],",
  "                );",
  "            state[6] ^= whole_matrix[(_i as i64 * BLOCKLENINT64 + prev * row_len_int64 + 6) as usize]",
  "                .wrapping_add(",
  "                    whole_matrix[(_i as i64 * BLOCKLENINT64 + rowa * row_len_int64 + 6) as usize],",
  "                );",
  "            state[7] ^= whole_matrix[(_i as i64 * BLOCKLENINT64 + prev * row_len_int64 + 7) as usize]",
  "                .wrapping_add(",
  "                    whole_matrix[(_i as i64 * BLOCKLENINT64 + rowa * row_len_int64 + 7) as usize],",
  "                );",
  "            state[8] ^= whole_matrix[(_i as i64 * BLOCKLENINT64 + prev * row_len_int64 + 8) as usize]",
  "                .wrapping_add(",
  "                    whole_matrix[(_i as i64 * BLOCKLENINT64 + rowa * row_len_int64 + 8) as usize],",
  "                );",
  "            state[9] ^= whole_matrix[(_i as i64 * BLOCKLENINT64 + prev * row_len_int64 + 9) as usize]",
  "                .wrapping_add(",
  "                    whole_matrix[(_i as i64 * BLOCKLENINT64 + rowa * row_len_int64 + 9) as usize],",
  "                );",
  "            state[10] ^= whole_matrix[(_i as i64 * BLOCKLENINT64 + prev * row_len_int64 + 10) as usize]",
  "                .wrapping_add(",
  "                    whole_matrix[(_i as i64 * BLOCKLENINT64 + rowa * row_len_int64 + 10) as usize],",
  "                );",
  "            state[11] ^= whole_matrix[(_i as i64 * BLOCKLENINT64 + prev * row_len_int64 + 11) as usize]",
  "                .wrapping_add(",
  "                    whole_matrix[(_i as i64 * BLOCKLENINT64 + rowa * row_len_int64 + 11) as usize],",
  "                );",
  "",
  "            //Applies the reduced-round transformation f to the sponge's state",
  "            state = reduced_blake2b_lyra(state);",
  "",
  "            //M[row][col] = M[prev][col] XOR rand",
  "            whole_matrix[((n_cols - _i - 1) as i64 * BLOCKLENINT64 + row * row_len_int64) as usize] =",
  "                whole_matrix[(_i as i64 * BLOCKLENINT64 + prev * row_len_int64) as usize] ^ state[0];",
  "            whole_matrix[((n_cols - _i - 1) as i64 * BLOCKLENINT64 + row * row_len_int64 + 1) as usize] =",
  "                whole_matrix[(_i as i64 * BLOCKLENINT64 + prev * row_len_int64 + 1) as usize] ^ state[1];",
  "            whole_matrix[((n_cols - _i - 1) as i64 * BLOCKLENINT64 + row * row_len_int64 + 2) as usize] =",
  "                whole_matrix[(_i as i64 * BLOCKLENINT64 + prev * row_len_int64 + 2) as usize] ^ state[2];",
  "            whole_matrix[((n_cols - _i - 1) as i64 * BLOCKLENINT64 + row * row_len_int64 + 3) as usize] =",
  "                whole_matrix[(_i as i64 * BLOCKLENINT64 + prev * row_len_int64 + 3) as usize] ^ state[3];",
  "            whole_matrix[((n_cols - _i - 1) as i64 * BLOCKLENINT64 + row * row_len_int64 + 4) as usize] =",
  "                whole_matrix[(_i as i64 * BLOCKLENINT64 + prev * row_len_int64 + 4) as usize] ^ state[4];",
  "            whole_matrix[((n_cols - _i - 1) as i64 * BLOCKLENINT64 + row * row_len_int64 + 5) as usize] =",
  "                whole_matrix[(_i as i64 * BLOCKLENINT64 + prev * row_len_int64 + 5) as usize] ^ state[5];",
  "            whole_matrix[((n_cols - _i - 1) as i64 * BLOCKLENINT64 + row * row_len_int64 + 6) as usize] =",
  "                whole_matrix[(_i as i64 * BLOCKLENINT64 + prev * row_len_int64 + 6) as usize] ^ state[6];",
  "            whole_matrix[((n_cols - _i - 1) as i64 * BLOCKLENINT64 + row * row_len_int64 + 7) as usize] =",
  "                whole_matrix[(_i as i64 * BLOCKLENINT64 + prev * row_len_int64 + 7) as usize] ^ state[7];",
  "            whole_matrix[((n_cols - _i - 1) as i64 * BLOCKLENINT64 + row * row_len_int64 + 8) as usize] =",
  "                whole_matrix[(_i as i64 * BLOCKLENINT64 + prev * row_len_int64 + 8) as usize] ^ state[8];",
  "            whole_matrix[((n_cols - _i - 1) as i64 * BLOCKLENINT64 + row * row_len_int64 + 9) as usize] =",
  "                whole_matrix[(_i as i64 * BLOCKLENINT64 + prev * row_len_int64 + 9) as usize] ^ state[9];",
  "            whole_matrix[((n_cols - _i - 1) as i64 * BLOCKLENINT64 + row * row_len_int64 + 10) as usize] =",
  "                whole_matrix[(_i as i64 * BLOCKLENINT64 + prev * row_len_int64 + 10) as usize] ^ state[10];",
  "            whole_matrix[((n_cols - _i - 1) as i64 * BLOCKLENINT64 + row * row_len_int64 + 11) as usize] =",
  "                whole_matrix[(_i as i64 * BLOCKLENINT64 + prev * row_len_int64 + 11) as usize] ^ state[11];",
  "",
  "            //M[row*][col] = M[row*][col] XOR rotW(rand)",
  "            whole_matrix[(_i as i64 * BLOCKLENINT64 + rowa * row_len_int64) as usize] ^= state[11];",
  "            whole_matrix[(_i as i64 * BLOCKLENINT64 + rowa * row_len_int64 + 1) as usize] ^= state[0];",
  "            whole_matrix[(_i as i64 * BLOCKLENINT64 + rowa * row_len_int64 + 2) as usize] ^= state[1];",
  "            whole_matrix[(_i as i64 * BLOCKLENINT64 + rowa * row_len_int64 + 3) as usize] ^= state[2];",
  "            whole_matrix[(_i as i64 * BLOCKLENINT64 + rowa * row_len_int64 + 4) as usize] ^= state[3];",
  "            whole_matrix[(_i as i64 * BLOCKLENINT64 + rowa * row_len_int64 + 5) as usize] ^= state[4];",
  "            whole_matrix[(_i as i64 * BLOCKLENINT64 + rowa * row_len_int64 + 6) as usize] ^= state[5];",
  "            whole_matrix[(_i as i64 * BLOCKLENINT64 + rowa * row_len_int64 + 7) as usize] ^= state[6];",
  "            whole_matrix[(_i as i64 * BLOCKLENINT64 + rowa * row_len_int64 + 8) as usize] ^= state[7];",
  "            whole_matrix[(_i as i64 * BLOCKLENINT64 + rowa * row_len_int64 + 9) as usize] ^= state[8];",
  "            whole_matrix[(_i as i64 * BLOCKLENINT64 + rowa * row_len_int64 + 10) as usize] ^= state[9];",
  "            whole_matrix[(_i as i64 * BLOCKLENINT64 + rowa * row_len_int64 + 11) as usize] ^= state[10];",
  "        }",
  "",
  "        //updates the value of row* (deterministically picked during Setup))",
  "        rowa = (rowa + step) & (window - 1);",
  "        //update prev: it now points to the last row ever computed",
  "        prev = row;",
  "        //updates row: goes to the next row to be computed",
  "        row += 1;",
  "",
  "        //Checks if all rows in the window where visited.",
  "        if rowa == 0 {",
  "            step = window + gap; //changes the step: approximately doubles its value",
  "            window *= 2; //doubles the size of the re-visitation window",
  "            gap = -gap; //inverts the modifier to the step",
  "        }",
  "    }",
  "    //==========================================================================/",
  "",
  "    //============================ Wandering Phase =============================//",
  "    let mut index: u64 = 0;",
  "    row = 0; //Resets the visitation to the first row of the memory matrix",
  "    for _tau in 1..=time_cost {",
  "        //Step is approximately half the number of all rows of the memory matrix for an odd _tau; otherwise, it is -1",
  "        step = n_rows as i64 / 2 - 1;",
  "        if _tau % 2 == 0 {",
  "            step = -1;",
  "        }",
  "",
  "        loop {",
  "            //Selects a pseudorandom index row*",
  "            //------------------------------------------------------------------------------------------",
  "            //rowa = ((unsigned int)state[0]) & (n_rows-1);	//(USE THIS IF n_rows IS A POWER OF 2)",
  "            index = state[index as usize & 0xf];",
  r#"            rowa = (state[index as usize & 0xf] & (n_rows - 1)) as i64; //(USE THIS FOR THE "GENERIC" CASE)"#,
  "            //------------------------------------------------------------------------------------------",
  "",
  "            //Performs a reduced-round duplexing operation over M[row*] XOR M[prev], updating both M[row*] and M[row]",
  "            //reducedDuplexRow(state, memMatrix[prev], memMatrix[rowa], memMatrix[row], n_cols)",
  "            for _i in 0..n_cols {",
  "                state[0] ^= whole_matrix[(_i as i64 * BLOCKLENINT64 + prev * row_len_int64) as usize]",
  "                    .wrapping_add(",
  "                        whole_matrix[(_i as i64 * BLOCKLENINT64 + rowa * row_len_int64) as usize],",
  "                    );",
  "                state[1] ^= whole_matrix[(_i as i64 * BLOCKLENINT64 + prev * row_len_int64 + 1) as usize]",
  "                    .wrapping_add(",
  "                        whole_matrix[(_i as i64 * BLOCKLENINT64 + rowa * row_len_int64 + 1) as usize],",
  "                    );",
  "                state[2] ^= whole_matrix[(_i as i64 * BLOCKLENINT64 + prev * row_len_int64 + 2) as usize]",
  "                    .wrapping_add(",
  "                        whole_matrix[(_i as i64 * BLOCKLENINT64 + rowa * row_len_int64 + 2) as usize],",
  "                    );",
  "                state[3] ^= whole_matrix[(_i as i64 * BLOCKLENINT64 + prev * row_len_int64 + 3) as usize]",
  "                    .wrapping_add(",
  "                        whole_matrix[(_i as i64 * BLOCKLENINT64 + rowa * row_len_int64 + 3) as usize],",
  "                    );",
  "                state[4] ^= whole_matrix[(_i as i64 * BLOCKLENINT64 + prev * row_len_int64 + 4) as usize]",
  "                    .wrapping_add(",
  "                        whole_matrix[(_i as i64 * BLOCKLENINT64 + rowa * row_len_int64 + 4) as usize],",
  "                    );",
  "                state[5] ^= whole_matrix[(_i as i64 * BLOCKLENINT64 + prev * row_len_int64 + 5) as usize]",
  "                    .wrapping_add(",
  "                        whole_matrix[(_i as i64 * BLOCKLENINT64 + rowa * row_len_int64 + 5) as usize],",
  "                    );",
  "                state[6] ^= whole_matrix[(_i as i64 * BLOCKLENINT64 + prev * row_len_int64 + 6) as usize]",
  "                    .wrapping_add(",
  "                        whole_matrix[(_i as i64 * BLOCKLENINT64 + rowa * row_len_int64 + 6) as usize],",
  "                    );",
  "                state[7] ^= whole_matrix[(_i as i64 * BLOCKLENINT64 + prev * row_len_int64 + 7) as usize]",
  "                    .wrapping_add(",
  "                        whole_matrix[(_i as i64 * BLOCKLENINT64 + rowa * row_len_int64 + 7) as usize],",
  "                    );",
  "                state[8] ^= whole_matrix[(_i as i64 * BLOCKLENINT64 + prev * row_len_int64 + 8) as usize]",
  "                    .wrapping_add(",
  "                        whole_matrix[(_i as i64 * BLOCKLENINT64 + rowa * row_len_int64 + 8) as usize],",
  "                    );",
  "                state[9] ^= whole_matrix[(_i as i64 * BLOCKLENINT64 + prev * row_len_int64 + 9) as usize]",
  "                    .wrapping_add(",
  "                        whole_matrix[(_i as i64 * BLOCKLENINT64 + rowa * row_len_int64 + 9) as usize],",
  "                    );",
  "                state[10] ^= whole_matrix",
  "                    [(_i as i64 * BLOCKLENINT64 + prev * row_len_int64 + 10) as usize]",
  "                    .wrapping_add(",
  "                        whole_matrix[(_i as i64 * BLOCKLENINT64 + rowa * row_len_int64 + 10) as usize],",
  "                    );",
  "                state[11] ^= whole_matrix",
  "                    [(_i as i64 * BLOCKLENINT64 + prev * row_len_int64 + 11) as usize]",
  "                    .wrapping_add(",
  "                        whole_matrix[(_i as i64 * BLOCKLENINT64 + rowa * row_len_int64 + 11) as usize],",
  "                    );",
  "",
  "                //Applies the reduced-round transformation f to the sponge's state",
  "                state = reduced_blake2b_lyra(state);",
  "",
  "                //M[rowOut][col] = M[rowOut][col] XOR rand",
  "                whole_matrix[(_i as i64 * BLOCKLENINT64 + row * row_len_int64) as usize] ^= state[0];",
  "                whole_matrix[(_i as i64 * BLOCKLENINT64 + row * row_len_int64 + 1) as usize] ^= state[1];",
  "                whole_matrix[(_i as i64 * BLOCKLENINT64 + row * row_len_int64 + 2) as usize] ^= state[2];",
  "                whole_matrix[(_i as i64 * BLOCKLENINT64 + row * row_len_int64 + 3) as usize] ^= state[3];",
  "                whole_matrix[(_i as i64 * BLOCKLENINT64 + row * row_len_int64 + 4) as usize] ^= state[4];",
  "                whole_matrix[(_i as i64 * BLOCKLENINT64 + row * row_len_int64 + 5) as usize] ^= state[5];",
  "                whole_matrix[(_i as i64 * BLOCKLENINT64 + row * row_len_int64 + 6) as usize] ^= state[6];",
  "                whole_matrix[(_i as i64 * BLOCKLENINT64 + row * row_len_int64 + 7) as usize] ^= state[7];",
  "                whole_matrix[(_i as i64 * BLOCKLENINT64 + row * row_len_int64 + 8) as usize] ^= state[8];",
  "                whole_matrix[(_i as i64 * BLOCKLENINT64 + row * row_len_int64 + 9) as usize] ^= state[9];",
  "                whole_matrix[(_i as i64 * BLOCKLENINT64 + row * row_len_int64 + 10) as usize] ^= state[10];",
  "                whole_matrix[(_i as i64 * BLOCKLENINT64 + row * row_len_int64 + 11) as usize] ^= state[11];",
  "",
  "                //M[rowInOut][col] = M[rowInOut][col] XOR rotW(rand)",
  "                whole_matrix[(_i as i64 * BLOCKLENINT64 + rowa * row_len_int64) as usize] ^= state[11];",
  "                whole_matrix[(_i as i64 * BLOCKLENINT64 + rowa * row_len_int64 + 1) as usize] ^= state[0];",
  "                whole_matrix[(_i as i64 * BLOCKLENINT64 + rowa * row_len_int64 + 2) as usize] ^= state[1];",
  "                whole_matrix[(_i as i64 * BLOCKLENINT64 + rowa * row_len_int64 + 3) as usize] ^= state[2];",
  "                whole_matrix[(_i as i64 * BLOCKLENINT64 + rowa * row_len_int64 + 4) as usize] ^= state[3];",
  "                whole_matrix[(_i as i64 * BLOCKLENINT64 + rowa * row_len_int64 + 5) as usize] ^= state[4];",
  "                whole_matrix[(_i as i64 * BLOCKLENINT64 + rowa * row_len_int64 + 6) as usize] ^= state[5];",
  "                whole_matrix[(_i as i64 * BLOCKLENINT64 + rowa * row_len_int64 + 7) as usize] ^= state[6];",
  "                whole_matrix[(_i as i64 * BLOCKLENINT64 + rowa * row_len_int64 + 8) as usize] ^= state[7];",
  "                whole_matrix[(_i as i64 * BLOCKLENINT64 + rowa * row_len_int64 + 9) as usize] ^= state[8];",
  "                whole_matrix[(_i as i64 * BLOCKLENINT64 + rowa * row_len_int64 + 10) as usize] ^= state[9];",
  "                whole_matrix[(_i as i64 * BLOCKLENINT64 + rowa * row_len_int64 + 11) as usize] ^= state[10];",
  "            }",
  "",
  "            //update prev: it now points to the last row ever computed",
  "            prev = row;",
  "",
  "            //updates row: goes to the next row to be computed",
  "            //------------------------------------------------------------------------------------------",
  "            //row = (row + step) & (n_rows-1);	//(USE THIS IF n_rows IS A POWER OF 2)",
  r#"            row = (row + step) & (n_rows as i64 -1); //(USE THIS FOR THE "GENERIC" CASE)"#,
  "            //------------------------------------------------------------------------------------------",
  "            if row == 0 {",
  "                break;",
  "            }",
  "        }",
  "    }",
  "    //==========================================================================/",
  "",
  "    //============================ Wrap-up Phase ===============================//",
  "    //Absorbs the last block of the memory matrix",
  "    let (_, mut _right) = &whole_matrix.split_at((rowa * row_len_int64) as usize);",
  "    state = absorb_block(state, _right.to_vec());",
  "    //Squeezes the key",
  "    squeeze(state, k)",
  "    //==========================================================================/",
  "}",
  "",
  "pub fn sum(input: Vec<u8>) -> Vec<u8> {",
  "    let input2 = input.clone();",
  "    lyra2mod(32, input, input2, 1, 4, 4)",
  "}",
  "",
  "#[test]",
  "fn lyra2mod_hash_cal() {",
  r#"    let base1 = "abc".as_bytes().to_vec();"#,
  "    let lyra2mod_result1 = sum(base1);",
  "    assert_eq!(",
  r#"        "0c36444f2885b72f3528af3b1f59174f8fd5c20b712988306962784c5f8ac462","#,
  "        lyra2mod_result1",
  "            .iter()",
  r#"            .map(|n| format!("{:02x}", n))"#,
  "            .collect::<String>()",
  "    );",
  "",
  r#"    let base3 = "脇山珠美ちゃんかわいい！".as_bytes().to_vec();"#,
  "    let base4 = base3.clone();",
  "    let lyra2mod_result2 = lyra2mod(48, base3, base4, 1, 3, 4);",
  r#"    assert_eq!("c937cfe0ee21a8e7c1d1871245ea717457edbee2de8bf544e50f807349a3460c52cb6bb10bd0b7328504bc2ad984e1f3", lyra2mod_result2.iter().map(|n| format!("{:02x}", n)).collect::<String>());"#,
  "",
  r#"    let base5 = "😀😁😂".as_bytes().to_vec();"#,
  "    let base6 = base5.clone();",
  "    let lyra2mod_result3 = lyra2mod(16, base5, base6, 1, 4, 2);",
  "    assert_eq!(",
  r#"        "3cd143a8903f35aa32fbe9395706cfd6","#,
  "        lyra2mod_result3",
  "            .iter()",
  r#"            .map(|n| format!("{:02x}", n))"#,
  "            .collect::<String>()",
  "    );",
  "}",
  ""]

/-- /repo/src/cubehash/mod.rs -/
def cubehash : List String := [
  "use crate::utils::read_u32_le;",
  "",
  "const IV: [u32; 32] = [",
  "    0xEA2B_D4B4,",
  "    0xCCD6_F29F,",
  "    0x6311_7E71,",
  "    0x3548_1EAE,",
  "    0x2251_2D5B,",
  "    0xE5D9_4E63,",
  "    0x7E62_4131,",
  "    0xF4CC_12BE,",
  "    0xC2D0_B696,",
  "    0x42AF_2070,",
  "    0xD072_0C35,",
  "    0x3361_DA8C,",
  "    0x28CC_ECA4,",
  "    0x8EF8_AD83,",
  "    0x4680_AC00,",
  "    0x40E5_FBAB,",
  "    0xD890_41C3,",
  "    0x6107_FBD5,",
  "    0x6C85_9D41,",
  "    0xF0B2_6679,",
  "    0x0939_2549,",
  "    0x5FA2_5603,",
  "    0x65C8_92FD,",
  "    0x93CB_6285,",
  "    0x2AF2_B5AE,",
  "    0x9E4B_4E60,",
  "    0x774A_BFDD,",
  "    0x8525_4725,",
  "    0x1581_5AEB,",
  "    0x4AB6_AAD6,",
  "    0x9CDA_F8AF,",
  "    0xD603_2C0A,",
  "];",
  "",
  "struct CubeHash {",
  "    x0: u32,",
  "    x1: u32,",
  "    x2: u32,",
  "    x3: u32,",
  "    x4: u32,",
  "    x5: u32,",
  "    x6: u32,",
  "    x7: u32,",
  "    x8: u32,",
  "    x9: u32,",
  "    xa: u32,",
  "    xb: u32,",
  "    xc: u32,",
  "    xd: u32,",
  "    xe: u32,",
  "    xf: u32,",
  "    xg: u32,",
  "    xh: u32,",
  "    xi: u32,",
  "    xj: u32,",
  "    xk: u32,",
  "    xl: u32,",
  "    xm: u32,",
  "    xn: u32,",
  "    xo: u32,",
  "    xp: u32,",
  "    xq: u32,",
  "    xr: u32,",
  "    xs: u32,",
  "    xt: u32,",
  "    xu: u32,",
  "    xv: u32,",
  "}",
  "",
  "fn new_cube_hash() -> CubeHash {",
  "    CubeHash {",
  "        x0: IV[0],",
  "        x1: IV[1],",
  "        x2: IV[2],",
  "        x3: IV[3],",
  "        x4: IV[4],",
  "        x5: IV[5],",
  "        x6: IV[6],",
  "        x7: IV[7],",
  "        x8: IV[8],",
  "        x9: IV[9],",
  "        xa: IV[10],",
  "        xb: IV[11],",
  "        xc: IV[12],",
  "        xd: IV[13],",
  "        xe: IV[14],",
  "        xf: IV[15],",
  "        xg: IV[16],",
  "        xh: IV[17],",
  "        xi: IV[18],",
  "        xj: IV[19],",
  "        xk: IV[20],",
  "        xl: IV[21],",
  "        xm: IV[22],",
  "        xn: IV[23],",
  "        xo: IV[24],",
  "        xp: IV[25],",
  "        xq: IV[26],",
  "        xr: IV[27],",
  "        xs: IV[28],",
  "        xt: IV[29],",
  "        xu: IV[30],",
  "        xv: IV[31],",
  "    }",
  "}",
  "",
  "fn input_block(data: Vec<u8>, mut c: CubeHash) -> CubeHash {",
  "    c.x0 ^= read_u32_le(&data[0..4]);",
  "    c.x1 ^= read_u32_le(&data[4..8]);",
  "    c.x2 ^= read_u32_le(&data[8..12]);",
  "    c.x3 ^= read_u32_le(&data[12..16]);",
  "    c.x4 ^= read_u32_le(&data[16..20]);",
  "    c.x5 ^= read_u32_le(&data[20..24]);",
  "    c.x6 ^= read_u32_le(&data[24..28]);",
  "    c.x7 ^= read_u32_le(&data[28..32]);",
  "    c",
  "}",
  "",
  "fn sixteen_rounds(mut c: CubeHash) -> CubeHash {",
  "    let mut _i = 0;",
  "    for _i in 0..8 {",
  "        c.xg = c.x0.wrapping_add(c.xg);",
  "        c.x0 = (c.x0 << 7) | (c.x0 >> (32 - 7));",
  "        c.xh = c.x1.wrapping_add(c.xh);",
  "        c.x1 = (c.x1 << 7) | (c.x1 >> (32 - 7));",
  "        c.xi = c.x2.wrapping_add(c.xi);",
  "        c.x2 = (c.x2 << 7) | (c.x2 >> (32 - 7));",
  "        c.xj = c.x3.wrapping_add(c.xj);",
  "        c.x3 = (c.x3 << 7) | (c.x3 >> (32 - 7));",
  "        c.xk = c.x4.wrapping_add(c.xk);",
  "        c.x4 = (c.x4 << 7) | (c.x4 >> (32 - 7));",
  "        c.xl = c.x5.wrapping_add(c.xl);",
  "        c.x5 = (c.x5 << 7) | (c.x5 >> (32 - 7));",
  "        c.xm = c.x6.wrapping_add(c.xm);",
  "        c.x6 = (c.x6 << 7) | (c.x6 >> (32 - 7));",
  "        c.xn = c.x7.wrapping_add(c.xn);",
  "        c.x7 = (c.x7 << 7) | (c.x7 >> (32 - 7));",
  "        c.xo = c.x8.wrapping_add(c.xo);",
  "        c.x8 = (c.x8 << 7) | (c.x8 >> (32 - 7));",
  "        c.xp = c.x9.wrapping_add(c.xp);",
  "        c.x9 = (c.x9 << 7) | (c.x9 >> (32 - 7));",
  "        c.xq = c.xa.wrapping_add(c.xq);",
  "        c.xa = (c.xa << 7) | (c.xa >> (32 - 7));",
  "        c.xr = c.xb.wrapping_add(c.xr);",
  "        c.xb = (c.xb << 7) | (c.xb >> (32 - 7));",
  "        c.xs = c.xc.wrapping_add(c.xs);",
  "        c.xc = (c.xc << 7) | (c.xc >> (32 - 7));",
  "        c.xt = c.xd.wrapping_add(c.xt);",
  "        c.xd = (c.xd << 7) | (c.xd >> (32 - 7));",
  "        c.xu = c.xe.wrapping_add(c.xu);",
  "        c.xe = (c.xe << 7) | (c.xe >> (32 - 7));",
  "        c.xv = c.xf.wrapping_add(c.xv);",
  "        c.xf = (c.xf << 7) | (c.xf >> (32 - 7));",
  "        c.x8 ^= c.xg;",
  "        c.x9 ^= c.xh;",
  "        c.xa ^= c.xi;",
  "        c.xb ^= c.xj;",
  "        c.xc ^= c.xk;",
  "        c.xd ^= c.xl;",
  "        c.xe ^= c.xm;",
  "        c.xf ^= c.xn;",
  "        c.x0 ^= c.xo;",
  "        c.x1 ^= c.xp;",
  "        c.x2 ^= c.xq;",
  "        c.x3 ^= c.xr;",
  "        c.x4 ^= c.xs;",
  "        c.x5 ^= c.xt;",
  "        c.x6 ^= c.xu;",
  "        c.x7 ^= c.xv;",
  "        c.xi = c.x8.wrapping_add(c.xi);",
  "        c.x8 = (c.x8 << 11) | (c.x8 >> (32 - 11));",
  "        c.xj = c.x9.wrapping_add(c.xj);",
  "        c.x9 = (c.x9 << 11) | (c.x9 >> (32 - 11));",
  "        c.xg = c.xa.wrapping_add(c.xg);",
  "        c.xa = (c.xa << 11) | (c.xa >> (32 - 11));",
  "        c.xh = c.xb.wrapping_add(c.xh);",
  "        c.xb = (c.xb << 11) | (c.xb >> (32 - 11));",
  "        c.xm = c.xc.wrapping_add(c.xm);",
  "        c.xc = (c.xc << 11) | (c.xc >> (32 - 11));",
  "        c.xn = c.xd.wrapping_add(c.xn);",
  "        c.xd = (c.xd << 11) | (c.xd >> (32 - 11));",
  "        c.xk = c.xe.wrapping_add(c.xk);",
  "        c.xe = (c.xe << 11) | (c.xe >> (32 - 11));",
  "        c.xl = c.xf.wrapping_add(c.xl);",
  "        c.xf = (c.xf << 11) | (c.xf >> (32 - 11));",
  "        c.xq = c.x0.wrapping_add(c.xq);",
  "        c.x0 = (c.x0 << 11) | (c.x0 >> (32 - 11));",
  "        c.xr = c.x1.wrapping_add(c.xr);",
  "        c.x1 = (c.x1 << 11) | (c.x1 >> (32 - 11));",
  "        c.xo = c.x2.wrapping_add(c.xo);",
  "        c.x2 = (c.x2 << 11) | (c.x2 >> (32 - 11));",
  "        c.xp = c.x3.wrapping_add(c.xp);",
  "        c.x3 = (c.x3 << 11) | (c.x3 >> (32 - 11));",
  "        c.xu = c.x4.wrapping_add(c.xu);",
  "        c.x4 = (c.x4 << 11) | (c.x4 >> (32 - 11));",
  "        c.xv = c.x5.wrapping_add(c.xv);",
  "        c.x5 = (c.x5 << 11) | (c.x5 >> (32 - 11));",
  "        c.xs = c.x6.wrapping_add(c.xs);",
  "        c.x6 = (c.x6 << 11) | (c.x6 >> (32 - 11));",
  "        c.xt = c.x7.wrapping_add(c.xt);",
  "        c.x7 = (c.x7 << 11) | (c.x7 >> (32 - 11));",
  "        c.xc ^= c.xi;",
  "        c.xd ^= c.xj;",
  "        c.xe ^= c.xg;",
  "        c.xf ^= c.xh;",
  "        c.x8 ^= c.xm;",
  "        c.x9 ^= c.xn;",
  "        c.xa ^= c.xk;",
  "        c.xb ^= c.xl;",
  "        c.x4 ^= c.xq;",
  "        c.x5 ^= c.xr;",
  "        c.x6 ^= c.xo;",
  "        c.x7 ^= c.xp;",
  "        c.x0 ^= c.xu;",
  "        c.x1 ^= c.xv;",
  "        c.x2 ^= c.xs;",
  "        c.x3 ^= c.xt;",
  "",
  "        c.xj = c.xc.wrapping_add(c.xj);",
  "        c.xc = (c.xc << 7) | (c.xc >> (32 - 7));",
  "        c.xi = c.xd.wrapping_add(c.xi);",
  "        c.xd = (c.xd << 7) | (c.xd >> (32 - 7));",
  "        c.xh = c.xe.wrapping_add(c.xh);",
  "        c.xe = (c.xe << 7) | (c.xe >> (32 - 7));",
  "        c.xg = c.xf.wrapping_add(c.xg);",
  "        c.xf = (c.xf << 7) | (c.xf >> (32 - 7));",
  "        c.xn = c.x8.wrapping_add(c.xn);",
  "        c.x8 = (c.x8 << 7) | (c.x8 >> (32 - 7));",
  "        c.xm = c.x9.wrapping_add(c.xm);",
  "        c.x9 = (c.x9 << 7) | (c.x9 >> (32 - 7));",
  "        c.xl = c.xa.wrapping_add(c.xl);",
  "        c.xa = (c.xa << 7) | (c.xa >> (32 - 7));",
  "        c.xk = c.xb.wrapping_add(c.xk);",
  "        c.xb = (c.xb << 7) | (c.xb >> (32 - 7));",
  "        c.xr = c.x4.wrapping_add(c.xr);",
  "        c.x4 = (c.x4 << 7) | (c.x4 >> (32 - 7));",
  "        c.xq = c.x5.wrapping_add(c.xq);",
  "        c.x5 = (c.x5 << 7) | (c.x5 >> (32 - 7));",
  "        c.xp = c.x6.wrapping_add(c.xp);",
  "        c.x6 = (c.x6 << 7) | (c.x6 >> (32 - 7));",
  "        c.xo = c.x7.wrapping_add(c.xo);",
  "        c.x7 = (c.x7 << 7) | (c.x7 >> (32 - 7));",
  "        c.xv = c.x0.wrapping_add(c.xv);",
  "        c.x0 = (c.x0 << 7) | (c.x0 >> (32 - 7));",
  "        c.xu = c.x1.wrapping_add(c.xu);",
  "        c.x1 = (c.x1 << 7) | (c.x1 >> (32 - 7));",
  "        c.xt = c.x2.wrapping_add(c.xt);",
  "        c.x2 = (c.x2 << 7) | (c.x2 >> (32 - 7));",
  "        c.xs = c.x3.wrapping_add(c.xs);",
  "        c.x3 = (c.x3 << 7) | (c.x3 >> (32 - 7));",
  "        c.x4 ^= c.xj;",
  "        c.x5 ^= c.xi;",
  "        c.x6 ^= c.xh;",
  "        c.x7 ^= c.xg;",
  "        c.x0 ^= c.xn;",
  "        c.x1 ^= c.xm;",
  "        c.x2 ^= c.xl;",
  "        c.x3 ^= c.xk;",
  "        c.xc ^= c.xr;",
  "        c.xd ^= c.xq;",
  "        c.xe ^= c.xp;",
  "        c.xf ^= c.xo;",
  "        c.x8 ^= c.xv;",
  "        c.x9 ^= c.xu;",
  "        c.xa ^= c.xt;",
  "        c.xb ^= c.xs;",
  "        c.xh = c.x4.wrapping_add(c.xh);",
  "        c.x4 = (c.x4 << 11) | (c.x4 >> (32 - 11));",
  "        c.xg = c.x5.wrapping_add(c.xg);",
  "        c.x5 = (c.x5 << 11) | (c.x5 >> (32 - 11));",
  "        c.xj = c.x6.wrapping_add(c.xj);",
  "        c.x6 = (c.x6 << 11) | (c.x6 >> (32 - 11));",
  "        c.xi = c.x7.wrapping_add(c.xi);",
  "        c.x7 = (c.x7 << 11) | (c.x7 >> (32 - 11));",
  "        c.xl = c.x0.wrapping_add(c.xl);",
  "        c.x0 = (c.x0 << 11) | (c.x0 >> (32 - 11));",
  "        c.xk = c.x1.wrapping_add(c.xk);",
  "        c.x1 = (c.x1 << 11) | (c.x1 >> (32 - 11));",
  "        c.xn = c.x2.wrapping_add(c.xn);",
  "        c.x2 = (c.x2 << 11) | (c.x2 >> (32 - 11));",
  "        c.xm = c.x3.wrapping_add(c.xm);",
  "        c.x3 = (c.x3 << 11) | (c.x3 >> (32 - 11));",
  "        c.xp = c.xc.wrapping_add(c.xp);",
  "        c.xc = (c.xc << 11) | (c.xc >> (32 - 11));",
  "        c.xo = c.xd.wrapping_add(c.xo);",
  "        c.xd = (c.xd << 11) | (c.xd >> (32 - 11));",
  "        c.xr = c.xe.wrapping_add(c.xr);",
  "        c.xe = (c.xe << 11) | (c.xe >> (32 - 11));",
  "        c.xq = c.xf.wrapping_add(c.xq);",
  "        c.xf = (c.xf << 11) | (c.xf >> (32 - 11));",
  "        c.xt = c.x8.wrapping_add(c.xt);",
  "        c.x8 = (c.x8 << 11) | (c.x8 >> (32 - 11));",
  "        c.xs = c.x9.wrapping_add(c.xs);",
  "        c.x9 = (c.x9 << 11) | (c.x9 >> (32 - 11));",
  "        c.xv = c.xa.wrapping_add(c.xv);",
  "        c.xa = (c.xa << 11) | (c.xa >> (32 - 11));",
  "        c.xu = c.xb.wrapping_add(c.xu);",
  "        c.xb = (c.xb << 11) | (c.xb >> (32 - 11));",
  "        c.x0 ^= c.xh;",
  "        c.x1 ^= c.xg;",
  "        c.x2 ^= c.xj;",
  "        c.x3 ^= c.xi;",
  "        c.x4 ^= c.xl;",
  "        c.x5 ^= c.xk;",
  "        c.x6 ^= c.xn;",
  "        c.x7 ^= c.xm;",
  "        c.x8 ^= c.xp;",
  "        c.x9 ^= c.xo;",
  "        c.xa ^= c.xr;",
  "        c.xb ^= c.xq;",
  "        c.xc ^= c.xt;",
  "        c.xd ^= c.xs;",
  "        c.xe ^= c.xv;",
  "        c.xf ^= c.xu;",
  "    }",
  "    c",
  "}",
  "",
  "//cubehash256 calculates cubuhash256.",
  "//length of data must be 32 bytes.",
  "pub fn sum(data: Vec<u8>) -> Vec<u8> {",
  "    let mut c = new_cube_hash();",
  "    let mut buf = vec![0; 32];",
  "    buf[0] = 0x80;",
  "    //let mut inputdata = data.clone();",
  "    //for _i in data.len()..32 {",
  "    //	inputdata.push(0);",
  "    //}",
  "    //c = input_block(inputdata, c);",
  "    c = input_block(data, c);",
  "    c = sixteen_rounds(c);",
  "    c = input_block(buf, c);",
  "    c = sixteen_rounds(c);",
  "    c.xv ^= 1;",
  "    for _j in 0..10 {",
  "        c = sixteen_rounds(c);",
  "    }",
  "    let mut out = vec![];",
  "    out.extend_from_slice(&c.x0.to_le_bytes());",
  "    out.extend_from_slice(&c.x1.to_le_bytes());",
  "    out.extend_from_slice(&c.x2.to_le_bytes());",
  "    out.extend_from_slice(&c.x3.to_le_bytes());",
  "    out.extend_from_slice(&c.x4.to_le_bytes());",
  "    out.extend_from_slice(&c.x5.to_le_bytes());",
  "    out.extend_from_slice(&c.x6.to_le_bytes());",
  "    out.extend_from_slice(&c.x7.to_le_bytes());",
  "    out",
  "}",
  "",
  "#[test]",
  "fn cubehash_hash_cal() {",
  r#"    let base1 = "00000000000000000000000000000000".as_bytes().to_vec();"#,
  "    let cubehash_result1 = sum(base1);",
  "    assert_eq!(",
  r#"        "f83989901eb3c366e7d7469f8ea8ef0694043cd42deb6252089ff38fb7892f3d","#,
  "        cubehash_result1",
  "            .iter()",
  r#"            .map(|n| format!("{:02x}", n))"#,
  "            .collect::<String>()",
  "    );",
  "}",
  ""]

/-- /repo/src/bmw/mod.rs -/
def bmw : List String := [
  "use crate::utils::read_u32_le;",
  "",
  "const INITVAL: [u32; 16] = [",
  "    0x4041_4243,",
  "    0x4445_4647,",
  "    0x4849_4A4B,",
  "    0x4C4D_4E4F,",
  "    0x5051_5253,",
  "    0x5455_5657,",
  "    0x5859_5A5B,",
  "    0x5C5D_5E5F,",
  "    0x6061_6263,",
  "    0x6465_6667,",
  "    0x6869_6A6B,",
  "    0x6C6D_6E6F,",
  "    0x7071_7273,",
  "    0x7475_7677,",
  "    0x7879_7A7B,",
  "    0x7C7D_7E7F,",
  "];",
  "",
  "const FINAL: [u32; 16] = [",
  "    0xaaaa_aaa0,",
  "    0xaaaa_aaa1,",
  "    0xaaaa_aaa2,",
  "    0xaaaa_aaa3,",
  "    0xaaaa_aaa4,",
  "    0xaaaa_aaa5,",
  "    0xaaaa_aaa6,",
  "    0xaaaa_aaa7,",
  "    0xaaaa_aaa8,",
  "    0xaaaa_aaa9,",
  "    0xaaaa_aaaa,",
  "    0xaaaa_aaab,",
  "    0xaaaa_aaac,",
  "    0xaaaa_aaad,",
  "    0xaaaa_aaae,",
  "    0xaaaa_aaaf,",
  "];",
  "",
  "fn circular_left(x: u32, n: u32) -> u32 {",
  "    (x << n) | (x >> (32 - n))",
  "}",
  "",
  "struct Bmw {",
  "    m: [u32; 16],",
  "    h: [u32; 16],",
  "    h2: [u32; 16],",
  "    q: [u32; 32],",
  "}",
  "",
  "fn new() -> Bmw {",
  "    let mut b = Bmw {",
  "        m: [0; 16],",
  "        h: [0; 16],",
  "        h2: [0; 16],",
  "        q: [0; 32],",
  "    };",
  "    b.h[0] = INITVAL[0];",
  "    b.h[1] = INITVAL[1];",
  "    b.h[2] = INITVAL[2];",
  "    b.h[3] = INITVAL[3];",
  "    b.h[4] = INITVAL[4];",
  "    b.h[5] = INITVAL[5];",
  "    b.h[6] = INITVAL[6];",
  "    b.h[7] = INITVAL[7];",
  "    b.h[8] = INITVAL[8];",
  "    b.h[9] = INITVAL[9];",
  "    b.h[10] = INITVAL[10];",
  "    b.h[11] = INITVAL[11];",
  "    b.h[12] = INITVAL[12];",
  "    b.h[13] = INITVAL[13];",
  "    b.h[14] = INITVAL[14];",
  "    b.h[15] = INITVAL[15];",
  "    b",
  "}",
  "",
  "fn compress(mut b: Bmw, m: [u32; 16]) -> Bmw {",
  "    let mut h = b.h;",
  "    let mut q = b.q;",
  "    q[0] = ((((m[5] ^ h[5])",
  "        .wrapping_sub(m[7] ^ h[7])",
  "        .wrapping_add(m[10] ^ h[10])",
  "        .wrapping_add(m[13] ^ h[13])",
  "        .wrapping_add(m[14] ^ h[14]))",
  "        >> 1)",
  "        ^ (((m[5] ^ h[5])",
  "            .wrapping_sub(m[7] ^ h[7])",
  "            .wrapping_add(m[10] ^ h[10])",
  "            .wrapping_add(m[13] ^ h[13])",
  "            .wrapping_add(m[14] ^ h[14]))",
  "            << 3)",
  "        ^ circular_left(",
  "            (m[5] ^ h[5])",
  "                .wrapping_sub(m[7] ^ h[7])",
  "                .wrapping_add(m[10] ^ h[10])",
  "                .wrapping_add(m[13] ^ h[13])",
  "                .wrapping_add(m[14] ^ h[14]),",
  "            4,",
  "        )",
  "        ^ circular_left(",
  "            (m[5] ^ h[5])",
  "                .wrapping_sub(m[7] ^ h[7])",
  "                .wrapping_add(m[10] ^ h[10])",
  "                .wrapping_add(m[13] ^ h[13])",
  "                .wrapping_add(m[14] ^ h[14]),",
  "            19,",
  "        ))",
  "    .wrapping_add(h[1]);",
  "    q[1] = ((((m[6] ^ h[6])",
  "        .wrapping_sub(m[8] ^ h[8])",
  "        .wrapping_add(m[11] ^ h[11])",
  "        .wrapping_add(m[14] ^ h[14])",
  "        .wrapping_sub(m[15] ^ h[15]))",
  "        >> 1)",
  "        ^ (((m[6] ^ h[6])",
  "            .wrapping_sub(m[8] ^ h[8])",
  "            .wrapping_add(m[11] ^ h[11])",
  "            .wrapping_add(m[14] ^ h[14])",
  "            .wrapping_sub(m[15] ^ h[15]))",
  "            << 2)",
  "        ^ circular_left(",
  "            (m[6] ^ h[6])",
  "                .wrapping_sub(m[8] ^ h[8])",
  "                .wrapping_add(m[11] ^ h[11])",
  "                .wrapping_add(m[14] ^ h[14])",
  "                .wrapping_sub(m[15] ^ h[15]),",
  "            8,",
  "        )",
  "        ^ circular_left(",
  "            (m[6] ^ h[6])",
  "                .wrapping_sub(m[8] ^ h[8])",
  "                .wrapping_add(m[11] ^ h[11])",
  "                .wrapping_add(m[14] ^ h[14])",
  "                .wrapping_sub(m[15] ^ h[15]),",
  "            23,",
  "        ))",
  "    .wrapping_add(h[2]);",
  "    q[2] = ((((m[0] ^ h[0])",
  "        .wrapping_add(m[7] ^ h[7])",
  "        .wrapping_add(m[9] ^ h[9])",
  "        .wrapping_sub(m[12] ^ h[12])",
  "        .wrapping_add(m[15] ^ h[15]))",
  "        >> 2)",
  "        ^ (((m[0] ^ h[0])",
  "            .wrapping_add(m[7] ^ h[7])",
  "            .wrapping_add(m[9] ^ h[9])",
  "            .wrapping_sub(m[12] ^ h[12])",
  "            .wrapping_add(m[15] ^ h[15]))",
  "            << 1)",
  "        ^ circular_left(",
  "            (m[0] ^ h[0])",
  "                .wrapping_add(m[7] ^ h[7])",
  "                .wrapping_add(m[9] ^ h[9])",
  "                .wrapping_sub(m[12] ^ h[12])",
  "                .wrapping_add(m[15] ^ h[15]),",
  "            12,",
  "        )",
  "        ^ circular_left(",
  "            (m[0] ^ h[0])",
  "                .wrapping_add(m[7] ^ h[7])",
  "                .wrapping_add(m[9] ^ h[9])",
  "                .wrapping_sub(m[12] ^ h[12])",
  "                .wrapping_add(m[15] ^ h[15]),",
  "            25,",
  "        ))",
  "    .wrapping_add(h[3]);",
  "    q[3] = ((((m[0] ^ h[0])",
  "        .wrapping_sub(m[1] ^ h[1])",
  "        .wrapping_add(m[8] ^ h[8])",
  "        .wrapping_sub(m[10] ^ h[10])",
  "        .wrapping_add(m[13] ^ h[13]))",
  "        >> 2)",
  "        ^ (((m[0] ^ h[0])",
  "            .wrapping_sub(m[1] ^ h[1])",
  "            .wrapping_add(m[8] ^ h[8])",
  "            .wrapping_sub(m[10] ^ h[10])",
  "            .wrapping_add(m[13] ^ h[13]))",
  "            << 2)",
  "        ^ circular_left(",
  "            (m[0] ^ h[0])",
  "                .wrapping_sub(m[1] ^ h[1])",
  "                .wrapping_add(m[8] ^ h[8])",
  "                .wrapping_sub(m[10] ^ h[10])",
  "                .wrapping_add(m[13] ^ h[13]),",
  "            15,",
  "        )",
  "        ^ circular_left(",
  "            (m[0] ^ h[0])",
  "                .wrapping_sub(m[1] ^ h[1])",
  "                .wrapping_add(m[8] ^ h[8])",
  "                .wrapping_sub(m[10] ^ h[10])",
  "                .wrapping_add(m[13] ^ h[13]),",
  "            29,",
  "        ))",
  "    .wrapping_add(h[4]);",
  "    q[4] = ((((m[1] ^ h[1])",
  "        .wrapping_add(m[2] ^ h[2])",
  "        .wrapping_add(m[9] ^ h[9])",
  "        .wrapping_sub(m[11] ^ h[11])",
  "        .wrapping_sub(m[14] ^ h[14]))",
  "        >> 1)",
  "        ^ ((m[1] ^ h[1])",
  "            .wrapping_add(m[2] ^ h[2])",
  "            .wrapping_add(m[9] ^ h[9])",
  "            .wrapping_sub(m[11] ^ h[11])",
  "            .wrapping_sub(m[14] ^ h[14])))",
  "    .wrapping_add(h[5]);",
  "    q[5] = ((((m[3] ^ h[3])",
  "        .wrapping_sub(m[2] ^ h[2])",
  "        .wrapping_add(m[10] ^ h[10])",
  "        .wrapping_sub(m[12] ^ h[12])",
  "        .wrapping_add(m[15] ^ h[15]))",
  "        >> 1)",
  "        ^ (((m[3] ^ h[3])",
  "            .wrapping_sub(m[2] ^ h[2])",
  "            .wrapping_add(m[10] ^ h[10])",
  "            .wrapping_sub(m[12] ^ h[12])",
  "            .wrapping_add(m[15] ^ h[15]))",
  "            << 3)",
  "        ^ circular_left(",
  "            (m[3] ^ h[3])",
  "                .wrapping_sub(m[2] ^ h[2])",
  "                .wrapping_add(m[10] ^ h[10])",
  "                .wrapping_sub(m[12] ^ h[12])",
  "                .wrapping_add(m[15] ^ h[15]),",
  "            4,",
  "        )",
  "        ^ circular_left(",
  "            (m[3] ^ h[3])",
  "                .wrapping_sub(m[2] ^ h[2])",
  "                .wrapping_add(m[10] ^ h[10])",
  "                .wrapping_sub(m[12] ^ h[12])",
  "                .wrapping_add(m[15] ^ h[15]),",
  "            19,",
  "        ))",
  "    .wrapping_add(h[6]);",
  "    q[6] = ((((m[4] ^ h[4])",
  "        .wrapping_sub(m[0] ^ h[0])",
  "        .wrapping_sub(m[3] ^ h[3])",
  "        .wrapping_sub(m[11] ^ h[11])",
  "        .wrapping_add(m[13] ^ h[13]))",
  "        >> 1)",
  "        ^ (((m[4] ^ h[4])",
  "            .wrapping_sub(m[0] ^ h[0])",
  "            .wrapping_sub(m[3] ^ h[3])",
  "            .wrapping_sub(m[11] ^ h[11])",
  "            .wrapping_add(m[13] ^ h[13]))",
  "            << 2)",
  "        ^ circular_left(",
  "            (m[4] ^ h[4])",
  "                .wrapping_sub(m[0] ^ h[0])",
  "                .wrapping_sub(m[3] ^ h[3])",
  "                .wrapping_sub(m[11] ^ h[11])",
  "                .wrapping_add(m[13] ^ h[13]),",
  "            8,",
  "        )",
  "        ^ circular_left(",
  "            (m[4] ^ h[4])",
  "                .wrapping_sub(m[0] ^ h[0])",
  "                .wrapping_sub(m[3] ^ h[3])",
  "                .wrapping_sub(m[11] ^ h[11])",
  "                .wrapping_add(m[13] ^ h[13]),",
  "            23,",
  "        ))",
  "    .wrapping_add(h[7]);",
  "    q[7] = ((((m[1] ^ h[1])",
  "        .wrapping_sub(m[4] ^ h[4])",
  "        .wrapping_sub(m[5] ^ h[5])",
  "        .wrapping_sub(m[12] ^ h[12])",
  "        .wrapping_sub(m[14] ^ h[14]))",
  "        >> 2)",
  "        ^ (((m[1] ^ h[1])",
  "            .wrapping_sub(m[4] ^ h[4])",
  "            .wrapping_sub(m[5] ^ h[5])",
  "            .wrapping_sub(m[12] ^ h[12])",
  "            .wrapping_sub(m[14] ^ h[14]))",
  "            << 1)",
  "        ^ circular_left(",
  "            (m[1] ^ h[1])",
  "                .wrapping_sub(m[4] ^ h[4])",
  "                .wrapping_sub(m[5] ^ h[5])",
  "                .wrapping_sub(m[12] ^ h[12])",
  "                .wrapping_sub(m[14] ^ h[14]),",
  "            12,",
  "        )",
  "        ^ circular_left(",
  "            (m[1] ^ h[1])",
  "                .wrapping_sub(m[4] ^ h[4])",
  "                .wrapping_sub(m[5] ^ h[5])",
  "                .wrapping_sub(m[12] ^ h[12])",
  "                .wrapping_sub(m[14] ^ h[14]),",
  "            25,",
  "        ))",
  "    .wrapping_add(h[8]);",
  "    q[8] = ((((m[2] ^ h[2])",
  "        .wrapping_sub(m[5] ^ h[5])",
  "        .wrapping_sub(m[6] ^ h[6])",
  "        .wrapping_add(m[13] ^ h[13])",
  "        .wrapping_sub(m[15] ^ h[15]))",
  "        >> 2)",
  "        ^ (((m[2] ^ h[2])",
  "            .wrapping_sub(m[5] ^ h[5])",
  "            .wrapping_sub(m[6] ^ h[6])",
  "            .wrapping_add(m[13] ^ h[13])",
  "            .wrapping_sub(m[15] ^ h[15]))",
  "            << 2)",
  "        ^ circular_left(",
  "            (m[2] ^ h[2])",
  "                .wrapping_sub(m[5] ^ h[5])",
  "                .wrapping_sub(m[6] ^ h[6])",
  "                .wrapping_add(m[13] ^ h[13])",
  "                .wrapping_sub(m[15] ^ h[15]),",
  "            15,",
  "        )",
  "        ^ circular_left(",
  "            (m[2] ^ h[2])",
  "                .wrapping_sub(m[5] ^ h[5])",
  "                .wrapping_sub(m[6] ^ h[6])",
  "                .wrapping_add(m[13] ^ h[13])",
  "                .wrapping_sub(m[15] ^ h[15]),",
  "            29,",
  "        ))",
  "    .wrapping_add(h[9]);",
  "    q[9] = ((((m[0] ^ h[0])",
  "        .wrapping_sub(m[3] ^ h[3])",
  "        .wrapping_add(m[6] ^ h[6])",
  "        .wrapping_sub(m[7] ^ h[7])",
  "        .wrapping_add(m[14] ^ h[14]))",
  "        >> 1)",
  "        ^ ((m[0] ^ h[0])",
  "            .wrapping_sub(m[3] ^ h[3])",
  "            .wrapping_add(m[6] ^ h[6])",
  "            .wrapping_sub(m[7] ^ h[7])",
  "            .wrapping_add(m[14] ^ h[14])))",
  "    .wrapping_add(h[10]);",
  "    q[10] = ((((m[8] ^ h[8])",
  "        .wrapping_sub(m[1] ^ h[1])",
  "        .wrapping_sub(m[4] ^ h[4])",
  "        .wrapping_sub(m[7] ^ h[7])",
  "        .wrapping_add(m[15] ^ h[15]))",
  "        >> 1)",
  "        ^ (((m[8] ^ h[8])",
  "            .wrapping_sub(m[1] ^ h[1])",
  "            .wrapping_sub(m[4] ^ h[4])",
  "            .wrapping_sub(m[7] ^ h[7])",
  "            .wrapping_add(m[15] ^ h[15]))",
  "            << 3)",
  "        ^ circular_left(",
  "            (m[8] ^ h[8])",
  "                .wrapping_sub(m[1] ^ h[1])",
  "                .wrapping_sub(m[4] ^ h[4])",
  "                .wrapping_sub(m[7] ^ h[7])",
  "                .wrapping_add(m[15] ^ h[15]),",
  "            4,",
  "        )",
  "        ^ circular_left(",
  "            (m[8] ^ h[8])",
  "                .wrapping_sub(m[1] ^ h[1])",
  "                .wrapping_sub(m[4] ^ h[4])",
  "                .wrapping_sub(m[7] ^ h[7])",
  "                .wrapping_add(m[15] ^ h[15]),",
  "            19,",
  "        ))",
  "    .wrapping_add(h[11]);",
  "    q[11] = ((((m[8] ^ h[8])",
  "        .wrapping_sub(m[0] ^ h[0])",
  "        .wrapping_sub(m[2] ^ h[2])",
  "        .wrapping_sub(m[5] ^ h[5])",
  "        .wrapping_add(m[9] ^ h[9]))",
  "        >> 1)",
  "        ^ (((m[8] ^ h[8])",
  "            .wrapping_sub(m[0] ^ h[0])",
  "            .wrapping_sub(m[2] ^ h[2])",
  "            .wrapping_sub(m[5] ^ h[5])",
  "            .wrapping_add(m[9] ^ h[9]))",
  "            << 2)",
  "        ^ circular_left(",
  "            (m[8] ^ h[8])",
  "                .wrapping_sub(m[0] ^ h[0])",
  "                .wrapping_sub(m[2] ^ h[2])",
  "                .wrapping_sub(m[5] ^ h[5])",
  "                .wrapping_add(m[9] ^ h[9]),",
  "            8,",
  "        )",
  "        ^ circular_left(",
  "            (m[8] ^ h[8])",
  "                .wrapping_sub(m[0] ^ h[0])",
  "                .wrapping_sub(m[2] ^ h[2])",
  "                .wrapping_sub(m[5] ^ h[5])",
  "                .wrapping_add(m[9] ^ h[9]),",
  "            23,",
  "        ))",
  "    .wrapping_add(h[12]);",
  "    q[12] = ((((m[1] ^ h[1])",
  "        .wrapping_add(m[3] ^ h[3])",
  "        .wrapping_sub(m[6] ^ h[6])",
  "        .wrapping_sub(m[9] ^ h[9])",
  "        .wrapping_add(m[10] ^ h[10]))",
  "        >> 2)",
  "        ^ (((m[1] ^ h[1])",
  "            .wrapping_add(m[3] ^ h[3])",
  "            .wrapping_sub(m[6] ^ h[6])",
  "            .wrapping_sub(m[9] ^ h[9])",
  "            .wrapping_add(m[10] ^ h[10]))",
  "            << 1)",
  "        ^ circular_left(",
  "            (m[1] ^ h[1])",
  "                .wrapping_add(m[3] ^ h[3])",
  "                .wrapping_sub(m[6] ^ h[6])",
  "                .wrapping_sub(m[9] ^ h[9])",
  "                .wrapping_add(m[10] ^ h[10]),",
  "            12,",
  "        )",
  "        ^ circular_left(",
  "            (m[1] ^ h[1])",
  "                .wrapping_add(m[3] ^ h[3])",
  "                .wrapping_sub(m[6] ^ h[6])",
  "                .wrapping_sub(m[9] ^ h[9])",
  "                .wrapping_add(m[10] ^ h[10]),",
  "            25,",
  "        ))",
  "    .wrapping_add(h[13]);",
  "    q[13] = ((((m[2] ^ h[2])",
  "        .wrapping_add(m[4] ^ h[4])",
  "        .wrapping_add(m[7] ^ h[7])",
  "        .wrapping_add(m[10] ^ h[10])",
  "        .wrapping_add(m[11] ^ h[11]))",
  "        >> 2)",
  "        ^ (((m[2] ^ h[2])",
  "            .wrapping_add(m[4] ^ h[4])",
  "            .wrapping_add(m[7] ^ h[7])",
  "            .wrapping_add(m[10] ^ h[10])",
  "            .wrapping_add(m[11] ^ h[11]))",
  "            << 2)",
  "        ^ circular_left(",
  "            (m[2] ^ h[2])",
  "                .wrapping_add(m[4] ^ h[4])",
  "                .wrapping_add(m[7] ^ h[7])",
  "                .wrapping_add(m[10] ^ h[10])",
  "                .wrapping_add(m[11] ^ h[11]),",
  "            15,",
  "        )",
  "        ^ circular_left(",
  "            (m[2] ^ h[2])",
  "                .wrapping_add(m[4] ^ h[4])",
  "                .wrapping_add(m[7] ^ h[7])",
  "                .wrapping_add(m[10] ^ h[10])",
  "                .wrapping_add(m[11] ^ h[11]),",
  "            29,",
  "        ))",
  "    .wrapping_add(h[14]);",
  "    q[14] = ((((m[3] ^ h[3])",
  "        .wrapping_sub(m[5] ^ h[5])",
  "        .wrapping_add(m[8] ^ h[8])",
  "        .wrapping_sub(m[11] ^ h[11])",
  "        .wrapping_sub(m[12] ^ h[12]))",
  "        >> 1)",
  "        ^ ((m[3] ^ h[3])",
  "            .wrapping_sub(m[5] ^ h[5])",
  "            .wrapping_add(m[8] ^ h[8])",
  "            .wrapping_sub(m[11] ^ h[11])",
  "            .wrapping_sub(m[12] ^ h[12])))",
  "    .wrapping_add(h[15]);",
  "    q[15] = ((((m[12] ^ h[12])",
  "        .wrapping_sub(m[4] ^ h[4])",
  "        .wrapping_sub(m[6] ^ h[6])",
  "        .wrapping_sub(m[9] ^ h[9])",
  "        .wrapping_add(m[13] ^ h[13]))",
  "        >> 1)",
  "        ^ (((m[12] ^ h[12])",
  "            .wrapping_sub(m[4] ^ h[4])",
  "            .wrapping_sub(m[6] ^ h[6])",
  "            .wrapping_sub(m[9] ^ h[9])",
  "            .wrapping_add(m[13] ^ h[13]))",
  "            << 3)",
  "        ^ circular_left(",
  "            (m[12] ^ h[12])",
  "                .wrapping_sub(m[4] ^ h[4])",
  "                .wrapping_sub(m[6] ^ h[6])",
  "                .wrapping_sub(m[9] ^ h[9])",
  "                .wrapping_add(m[13] ^ h[13]),",
  "            4,",
  "        )",
  "        ^ circular_left(",
  "            (m[12] ^ h[12])",
  "                .wrapping_sub(m[4] ^ h[4])",
  "                .wrapping_sub(m[6] ^ h[6])",
  "                .wrapping_sub(m[9] ^ h[9])",
  "                .wrapping_add(m[13] ^ h[13]),",
  "            19,",
  "        ))",
  "    .wrapping_add(h[0]);",
  "    q[16] = ((q[0] >> 1) ^ (q[0] << 2) ^ circular_left(q[0], 8) ^ circular_left(q[0], 23))",
  "        .wrapping_add((q[1] >> 2) ^ (q[1] << 1) ^ circular_left(q[1], 12) ^ circular_left(q[1], 25))",
  "        .wrapping_add((q[2] >> 2) ^ (q[2] << 2) ^ circular_left(q[2], 15) ^ circular_left(q[2], 29))",
  "        .wrapping_add((q[3] >> 1) ^ (q[3] << 3) ^ circular_left(q[3], 4) ^ circular_left(q[3], 19))",
  "        .wrapping_add((q[4] >> 1) ^ (q[4] << 2) ^ circular_left(q[4], 8) ^ circular_left(q[4], 23))",
  "        .wrapping_add((q[5] >> 2) ^ (q[5] << 1) ^ circular_left(q[5], 12) ^ circular_left(q[5], 25))",
  "        .wrapping_add((q[6] >> 2) ^ (q[6] << 2) ^ circular_left(q[6], 15) ^ circular_left(q[6], 29))",
  "        .wrapping_add((q[7] >> 1) ^ (q[7] << 3) ^ circular_left(q[7], 4) ^ circular_left(q[7], 19))",
  "        .wrapping_add((q[8] >> 1) ^ (q[8] << 2) ^ circular_left(q[8], 8) ^ circular_left(q[8], 23))",
  "        .wrapping_add((q[9] >> 2) ^ (q[9] << 1) ^ circular_left(q[9], 12) ^ circular_left(q[9], 25))",
  "        .wrapping_add(",
  "            (q[10] >> 2) ^ (q[10] << 2) ^ circular_left(q[10], 15) ^ circular_left(q[10], 29),",
  "        )",
  "        .wrapping_add(",
  "            (q[11] >> 1) ^ (q[11] << 3) ^ circular_left(q[11], 4) ^ circular_left(q[11], 19),",
  "        )",
  "        .wrapping_add(",
  "            (q[12] >> 1) ^ (q[12] << 2) ^ circular_left(q[12], 8) ^ circular_left(q[12], 23),",
  "        )",
  "        .wrapping_add(",
  "            (q[13] >> 2) ^ (q[13] << 1) ^ circular_left(q[13], 12) ^ circular_left(q[13], 25),",
  "        )",
  "        .wrapping_add(",
  "            (q[14] >> 2) ^ (q[14] << 2) ^ circular_left(q[14], 15) ^ circular_left(q[14], 29),",
  "        )",
  "        .wrapping_add(",
  "            (q[15] >> 1) ^ (q[15] << 3) ^ circular_left(q[15], 4) ^ circular_left(q[15], 19),",
  "        )",
  "        .wrapping_add(",
  "            (circular_left(m[0], 1)",
  "                .wrapping_add(circular_left(m[3], 4))",
  "                .wrapping_sub(circular_left(m[10], 11))",
  "                .wrapping_add(16 * 0x0555_5555))",
  "                ^ h[7],",
  "        );",
  "    q[17] = ((q[1] >> 1) ^ (q[1] << 2) ^ circular_left(q[1], 8) ^ circular_left(q[1], 23))",
  "        .wrapping_add((q[2] >> 2) ^ (q[2] << 1) ^ circular_left(q[2], 12) ^ circular_left(q[2], 25))",
  "        .wrapping_add((q[3] >> 2) ^ (q[3] << 2) ^ circular_left(q[3], 15) ^ circular_left(q[3], 29))",
  "        .wrapping_add((q[4] >> 1) ^ (q[4] << 3) ^ circular_left(q[4], 4) ^ circular_left(q[4], 19))",
  "        .wrapping_add((q[5] >> 1) ^ (q[5] << 2) ^ circular_left(q[5], 8) ^ circular_left(q[5], 23))",
  "        .wrapping_add((q[6] >> 2) ^ (q[6] << 1) ^ circular_left(q[6], 12) ^ circular_left(q[6], 25))",
  "        .wrapping_add((q[7] >> 2) ^ (q[7] << 2) ^ circular_left(q[7], 15) ^ circular_left(q[7], 29))",
  "        .wrapping_add((q[8] >> 1) ^ (q[8] << 3) ^ circular_left(q[8], 4) ^ circular_left(q[8], 19))",
  "        .wrapping_add((q[9] >> 1) ^ (q[9] << 2) ^ circular_left(q[9], 8) ^ circular_left(q[9], 23))",
  "        .wrapping_add(",
  "            (q[10] >> 2) ^ (q[10] << 1) ^ circular_left(q[10], 12) ^ circular_left(q[10], 25),",
  "        )",
  "        .wrapping_add(",
  "            (q[11] >> 2) ^ (q[11] << 2) ^ circular_left(q[11], 15) ^ circular_left(q[11], 29),",
  "        )",
  "        .wrapping_add(",
  "            (q[12] >> 1) ^ (q[12] << 3) ^ circular_left(q[12], 4) ^ circular_left(q[12], 19),",
  "        )",
  "        .wrapping_add(",
  "            (q[13] >> 1) ^ (q[13] << 2) ^ circular_left(q[13], 8) ^ circular_left(q[13], 23),",
  "        )",
  "        .wrapping_add(",
  "            (q[14] >> 2) ^ (q[14] << 1) ^ circular_left(q[14], 12) ^ circular_left(q[14], 25),",
  "        )",
  "        .wrapping_add(",
  "            (q[15] >> 2) ^ (q[15] << 2) ^ circular_left(q[15], 15) ^ circular_left(q[15], 29),",
  "        )",
  "        .wrapping_add(",
  "            (q[16] >> 1) ^ (q[16] << 3) ^ circular_left(q[16], 4) ^ circular_left(q[16], 19),",
  "        )",
  "        .wrapping_add(",
  "            (circular_left(m[1], 2)",
  "                .wrapping_add(circular_left(m[4], 5))",
  "                .wrapping_sub(circular_left(m[11], 12))",
  "                .wrapping_add(17 * 0x0555_5555))",
  "                ^ h[8],",
  "        );",
  "    q[18] = q[2]",
  "        .wrapping_add(circular_left(q[3], 3))",
  "        .wrapping_add(q[4])",
  "        .wrapping_add(circular_left(q[5], 7))",
  "        .wrapping_add(q[6])",
  "        .wrapping_add(circular_left(q[7], 13))",
  "        .wrapping_add(q[8])",
  "        .wrapping_add(circular_left(q[9], 16))",
  "        .wrapping_add(q[10])",
  "        .wrapping_add(circular_left(q[11], 19))",
  "        .wrapping_add(q[12])",
  "        .wrapping_add(circular_left(q[13], 23))",
  "        .wrapping_add(q[14])",
  "        .wrapping_add(circular_left(q[15], 27))",
  "        .wrapping_add((q[16] >> 1) ^ q[16])",
  "        .wrapping_add((q[17] >> 2) ^ q[17])",
  "        .wrapping_add(",
  "            (circular_left(m[2], 3)",
  "                .wrapping_add(circular_left(m[5], 6))",
  "                .wrapping_sub(circular_left(m[12], 13))",
  "                .wrapping_add(18 * 0x0555_5555))",
  "                ^ h[9],",
  "        );",
  "    q[19] = q[3]",
  "        .wrapping_add(circular_left(q[4], 3))",
  "        .wrapping_add(q[5])",
  "        .wrapping_add(circular_left(q[6], 7))",
  "        .wrapping_add(q[7])",
  "        .wrapping_add(circular_left(q[8], 13))",
  "        .wrapping_add(q[9])",
  "        .wrapping_add(circular_left(q[10], 16))",
  "        .wrapping_add(q[11])",
  "        .wrapping_add(circular_left(q[12], 19))",
  "        .wrapping_add(q[13])",
  "        .wrapping_add(circular_left(q[14], 23))",
  "        .wrapping_add(q[15])",
  "        .wrapping_add(circular_left(q[16], 27))",
  "        .wrapping_add((q[17] >> 1) ^ q[17])",
  "        .wrapping_add((q[18] >> 2) ^ q[18])",
  "        .wrapping_add(",
  "            (circular_left(m[3], 4)",
  "                .wrapping_add(circular_left(m[6], 7))",
  "                .wrapping_sub(circular_left(m[13], 14))",
  "                .wrapping_add(19 * 0x0555_5555))",
  "                ^ h[10],",
  "        );",
  "    q[20] = q[4]",
  "        .wrapping_add(circular_left(q[5], 3))",
  "        .wrapping_add(q[6])",
  "        .wrapping_add(circular_left(q[7], 7))",
  "        .wrapping_add(q[8])",
  "        .wrapping_add(circular_left(q[9], 13))",
  "        .wrapping_add(q[10])",
  "        .wrapping_add(circular_left(q[11], 16))",
  "        .wrapping_add(q[12])",
  "        .wrapping_add(circular_left(q[13], 19))",
  "        .wrapping_add(q[14])",
  "        .wrapping_add(circular_left(q[15], 23))",
  "        .wrapping_add(q[16])",
  "        .wrapping_add(circular_left(q[17], 27))",
  "        .wrapping_add((q[18] >> 1) ^ q[18])",
  "        .wrapping_add((q[19] >> 2) ^ q[19])",
  "        .wrapping_add(",
  "            (circular_left(m[4], 5)",
  "                .wrapping_add(circular_left(m[7], 8))",
  "                .wrapping_sub(circular_left(m[14], 15))",
  "                .wrapping_add(20 * 0x0555_5555))",
  "                ^ h[11],",
  "        );",
  "    q[21] = q[5]",
  "        .wrapping_add(circular_left(q[6], 3))",
  "        .wrapping_add(q[7])",
  "        .wrapping_add(circular_left(q[8], 7))",
  "        .wrapping_add(q[9])",
  "        .wrapping_add(circular_left(q[10], 13))",
  "        .wrapping_add(q[11])",
  "        .wrapping_add(circular_left(q[12], 16))",
  "        .wrapping_add(q[13])",
  "        .wrapping_add(circular_left(q[14], 19))",
  "        .wrapping_add(q[15])",
  "        .wrapping_add(circular_left(q[16], 23))",
  "        .wrapping_add(q[17])",
  "        .wrapping_add(circular_left(q[18], 27))",
  "        .wrapping_add((q[19] >> 1) ^ q[19])",
  "        .wrapping_add((q[20] >> 2) ^ q[20])",
  "        .wrapping_add(",
  "            (circular_left(m[5], 6)",
  "                .wrapping_add(circular_left(m[8], 9))",
  "                .wrapping_sub(circular_left(m[15], 16))",
  "                .wrapping_add(21 * 0x0555_5555))",
  "                ^ h[12],",
  "        );",
  "    q[22] = q[6]",
  "        .wrapping_add(circular_left(q[7], 3))",
  "        .wrapping_add(q[8])",
  "        .wrapping_add(circular_left(q[9], 7))",
  "        .wrapping_add(q[10])",
  "        .wrapping_add(circular_left(q[11], 13))",
  "        .wrapping_add(q[12])",
  "        .wrapping_add(circular_left(q[13], 16))",
  "        .wrapping_add(q[14])",
  "        .wrapping_add(circular_left(q[15], 19))",
  "        .wrapping_add(q[16])",
  "        .wrapping_add(circular_left(q[17], 23))",
  "        .wrapping_add(q[18])",
  "        .wrapping_add(circular_left(q[19], 27))",
  "        .wrapping_add((q[20] >> 1) ^ q[20])",
  "        .wrapping_add((q[21] >> 2) ^ q[21])",
  "        .wrapping_add(",
  "            (circular_left(m[6], 7)",
  "                .wrapping_add(circular_left(m[9], 10))",
  "                .wrapping_sub(circular_left(m[0], 1))",
  "                .wrapping_add(22 * 0x0555_5555))",
  "                ^ h[13],",
  "        );",
  "    q[23] = q[7]",
  "        .wrapping_add(circular_left(q[8], 3))",
  "        .wrapping_add(q[9])",
  "        .wrapping_add(circular_left(q[10], 7))",
  "        .wrapping_add(q[11])",
  "        .wrapping_add(circular_left(q[12], 13))",
  "        .wrapping_add(q[13])",
  "        .wrapping_add(circular_left(q[14], 16))",
  "        .wrapping_add(q[15])",
  "        .wrapping_add(circular_left(q[16], 19))",
  "        .wrapping_add(q[17])",
  "        .wrapping_add(circular_left(q[18], 23))",
  "        .wrapping_add(q[19])",
  "        .wrapping_add(circular_left(q[20], 27))",
  "        .wrapping_add((q[21] >> 1) ^ q[21])",
  "        .wrapping_add((q[22] >> 2) ^ q[22])",
  "        .wrapping_add(",
  "            (circular_left(m[7], 8)",
  "                .wrapping_add(circular_left(m[10], 11))",
  "                .wrapping_sub(circular_left(m[1], 2))",
  "                .wrapping_add(23 * 0x0555_5555))",
  "                ^ h[14],",
  "        );",
  "    q[24] = q[8]",
  "        .wrapping_add(circular_left(q[9], 3))",
  "        .wrapping_add(q[10])",
  "        .wrapping_add(circular_left(q[11], 7))",
  "        .wrapping_add(q[12])",
  "        .wrapping_add(circular_left(q[13], 13))",
  "        .wrapping_add(q[14])",
  "        .wrapping_add(circular_left(q[15], 16))",
  "        .wrapping_add(q[16])",
  "        .wrapping_add(circular_left(q[17], 19))",
  "        .wrapping_add(q[18])",
  "        .wrapping_add(circular_left(q[19], 23))",
  "        .wrapping_add(q[20])",
  "        .wrapping_add(circular_left(q[21], 27))",
  "        .wrapping_add((q[22] >> 1) ^ q[22])",
  "        .wrapping_add((q[23] >> 2) ^ q[23])",
  "        .wrapping_add(",
  "            (circular_left(m[8], 9)",
  "                .wrapping_add(circular_left(m[11], 12))",
  "                .wrapping_sub(circular_left(m[2], 3))",
  "                .wrapping_add(24 * 0x0555_5555))",
  "                ^ h[15],",
  "        );",
  "    q[25] = q[9]",
  "        .wrapping_add(circular_left(q[10], 3))",
  "        .wrapping_add(q[11])",
  "        .wrapping_add(circular_left(q[12], 7))",
  "        .wrapping_add(q[13])",
  "        .wrapping_add(circular_left(q[14], 13))",
  "        .wrapping_add(q[15])",
  "        .wrapping_add(circular_left(q[16], 16))",
  "        .wrapping_add(q[17])",
  "        .wrapping_add(circular_left(q[18], 19))",
  "        .wrapping_add(q[19])",
  "        .wrapping_add(circular_left(q[20], 23))",
  "        .wrapping_add(q[21])",
  "        .wrapping_add(circular_left(q[22], 27))",
  "        .wrapping_add((q[23] >> 1) ^ q[23])",
  "        .wrapping_add((q[24] >> 2) ^ q[24])",
  "        .wrapping_add(",
  "            (circular_left(m[9], 10)",
  "                .wrapping_add(circular_left(m[12], 13))",
  "                .wrapping_sub(circular_left(m[3], 4))",
  "                .wrapping_add(25 * 0x0555_5555))",
  "                ^ h[0],",
  "        );",
  "    q[26] = q[10]",
  "        .wrapping_add(circular_left(q[11], 3))",
  "        .wrapping_add(q[12])",
  "        .wrapping_add(circular_left(q[13], 7))",
  "        .wrapping_add(q[14])",
  "        .wrapping_add(circular_left(q[15], 13))",
  "        .wrapping_add(q[16])",
  "        .wrapping_add(circular_left(q[17], 16))",
  "        .wrapping_add(q[18])",
  "        .wrapping_add(circular_left(q[19], 19))",
  "        .wrapping_add(q[20])",
  "        .wrapping_add(circular_left(q[21], 23))",
  "        .wrapping_add(q[22])",
  "        .wrapping_add(circular_left(q[23], 27))",
  "        .wrapping_add((q[24] >> 1) ^ q[24])",
  "        .wrapping_add((q[25] >> 2) ^ q[25])",
  "        .wrapping_add(",
  "            (circular_left(m[10], 11)",
  "                .wrapping_add(circular_left(m[13], 14))",
  "                .wrapping_sub(circular_left(m[4], 5))",
  "                .wrapping_add(26 * 0x0555_5555))",
  "                ^ h[1],",
  "        );",
  "    q[27] = q[11]",
  "        .wrapping_add(circular_left(q[12], 3))",
  "        .wrapping_add(q[13])",
  "        .wrapping_add(circular_left(q[14], 7))",
  "        .wrapping_add(q[15])",
  "        .wrapping_add(circular_left(q[16], 13))",
  "        .wrapping_add(q[17])",
  "        .wrapping_add(circular_left(q[18], 16))",
  "        .wrapping_add(q[19])",
  "        .wrapping_add(circular_left(q[20], 19))",
  "        .wrapping_add(q[21])",
  "        .wrapping_add(circular_left(q[22], 23))",
  "        .wrapping_add(q[23])",
  "        .wrapping_add(circular_left(q[24], 27))",
  "        .wrapping_add((q[25] >> 1) ^ q[25])",
  "        .wrapping_add((q[26] >> 2) ^ q[26])",
  "        .wrapping_add(",
  "            (circular_left(m[11], 12)",
  "                .wrapping_add(circular_left(m[14], 15))",
  "                .wrapping_sub(circular_left(m[5], 6))",
  "                .wrapping_add(27 * 0x0555_5555))",
  "                ^ h[2],",
  "        );",
  "    q[28] = q[12]",
  "        .wrapping_add(circular_left(q[13], 3))",
  "        .wrapping_add(q[14])",
  "        .wrapping_add(circular_left(q[15], 7))",
  "        .wrapping_add(q[16])",
  "        .wrapping_add(circular_left(q[17], 13))",
  "        .wrapping_add(q[18])",
  "        .wrapping_add(circular_left(q[19], 16))",
  "        .wrapping_add(q[20])",
  "        .wrapping_add(circular_left(q[21], 19))",
  "        .wrapping_add(q[22])",
  "        .wrapping_add(circular_left(q[23], 23))",
  "        .wrapping_add(q[24])",
  "        .wrapping_add(circular_left(q[25], 27))",
  "        .wrapping_add((q[26] >> 1) ^ q[26])",
  "        .wrapping_add((q[27] >> 2) ^ q[27])",
  "        .wrapping_add(",
  "            (circular_left(m[12], 13)",
  "                .wrapping_add(circular_left(m[15], 16))",
  "                .wrapping_sub(circular_left(m[6], 7))",
  "                .wrapping_add(28 * 0x0555_5555))",
  "                ^ h[3],",
  "        );",
  "    q[29] = q[13]",
  "        .wrapping_add(circular_left(q[14], 3))",
  "        .wrapping_add(q[15])",
  "        .wrapping_add(circular_left(q[16], 7))",
  "        .wrapping_add(q[17])",
  "        .wrapping_add(circular_left(q[18], 13))",
  "        .wrapping_add(q[19])",
  "        .wrapping_add(circular_left(q[20], 16))",
  "        .wrapping_add(q[21])",
  "        .wrapping_add(circular_left(q[22], 19))",
  "        .wrapping_add(q[23])",
  "        .wrapping_add(circular_left(q[24], 23))",
  "        .wrapping_add(q[25])",
  "        .wrapping_add(circular_left(q[26], 27))",
  "        .wrapping_add((q[27] >> 1) ^ q[27])",
  "        .wrapping_add((q[28] >> 2) ^ q[28])",
  "        .wrapping_add(",
  "            (circular_left(m[13], 14)",
  "                .wrapping_add(circular_left(m[0], 1))",
  "                .wrapping_sub(circular_left(m[7], 8))",
  "                .wrapping_add(29 * 0x0555_5555))",
  "                ^ h[4],",
  "        );",
  "    q[30] = q[14]",
  "        .wrapping_add(circular_left(q[15], 3))",
  "        .wrapping_add(q[16])",
  "        .wrapping_add(circular_left(q[17], 7))",
  "        .wrapping_add(q[18])",
  "        .wrapping_add(circular_left(q[19], 13))",
  "        .wrapping_add(q[20])",
  "        .wrapping_add(circular_left(q[21], 16))",
  "        .wrapping_add(q[22])",
  "        .wrapping_add(circular_left(q[23], 19))",
  "        .wrapping_add(q[24])",
  "        .wrapping_add(circular_left(q[25], 23))",
  "        .wrapping_add(q[26])",
  "        .wrapping_add(circular_left(q[27], 27))",
  "        .wrapping_add((q[28] >> 1) ^ q[28])",
  "        .wrapping_add((q[29] >> 2) ^ q[29])",
  "        .wrapping_add(",
  "            (circular_left(m[14], 15)",
  "                .wrapping_add(circular_left(m[1], 2))",
  "                .wrapping_sub(circular_left(m[8], 9))",
  "                .wrapping_add(30 * 0x0555_5555))",
  "                ^ h[5],",
  "        );",
  "    q[31] = q[15]",
  "        .wrapping_add(circular_left(q[16], 3))",
  "        .wrapping_add(q[17])",
  "        .wrapping_add(circular_left(q[18], 7))",
  "        .wrapping_add(q[19])",
  "        .wrapping_add(circular_left(q[20], 13))",
  "        .wrapping_add(q[21])",
  "        .wrapping_add(circular_left(q[22], 16))",
  "        .wrapping_add(q[23])",
  "        .wrapping_add(circular_left(q[24], 19))",
  "        .wrapping_add(q[25])",
  "        .wrapping_add(circular_left(q[26], 23))",
  "        .wrapping_add(q[27])",
  "        .wrapping_add(circular_left(q[28], 27))",
  "        .wrapping_add((q[29] >> 1) ^ q[29])",
  "        .wrapping_add((q[30] >> 2) ^ q[30])",
  "        .wrapping_add(",
  "            (circular_left(m[15], 16)",
  "                .wrapping_add(circular_left(m[2], 3))",
  "                .wrapping_sub(circular_left(m[9], 10))",
  "                .wrapping_add(31 * 0x0555_5555))",
  "                ^ h[6],",
  "        );",
  "    let xl = q[16] ^ q[17] ^ q[18] ^ q[19] ^ q[20] ^ q[21] ^ q[22] ^ q[23];",
  "    let xh = xl ^ q[24] ^ q[25] ^ q[26] ^ q[27] ^ q[28] ^ q[29] ^ q[30] ^ q[31];",
  "    h[0] = ((xh << 5) ^ (q[16] >> 5) ^ m[0]).wrapping_add(xl ^ q[24] ^ q[0]);",
  "    h[1] = ((xh >> 7) ^ (q[17] << 8) ^ m[1]).wrapping_add(xl ^ q[25] ^ q[1]);",
  "    h[2] = ((xh >> 5) ^ (q[18] << 5) ^ m[2]).wrapping_add(xl ^ q[26] ^ q[2]);",
  "    h[3] = ((xh >> 1) ^ (q[19] << 5) ^ m[3]).wrapping_add(xl ^ q[27] ^ q[3]);",
  "    h[4] = ((xh >> 3) ^ q[20] ^ m[4]).wrapping_add(xl ^ q[28] ^ q[4]);",
  "    h[5] = ((xh << 6) ^ (q[21] >> 6) ^ m[5]).wrapping_add(xl ^ q[29] ^ q[5]);",
  "    h[6] = ((xh >> 4) ^ (q[22] << 6) ^ m[6]).wrapping_add(xl ^ q[30] ^ q[6]);",
  "    h[7] = ((xh >> 11) ^ (q[23] << 2) ^ m[7]).wrapping_add(xl ^ q[31] ^ q[7]);",
  "    h[8] = circular_left(h[4], 9)",
  "        .wrapping_add(xh ^ q[24] ^ m[8])",
  "        .wrapping_add((xl << 8) ^ q[23] ^ q[8]);",
  "    h[9] = circular_left(h[5], 10)",
  "        .wrapping_add(xh ^ q[25] ^ m[9])",
  "        .wrapping_add((xl >> 6) ^ q[16] ^ q[9]);",
  "    h[10] = circular_left(h[6], 11)",
  "        .wrapping_add(xh ^ q[26] ^ m[10])",
  "        .wrapping_add((xl << 6) ^ q[17] ^ q[10]);",
  "    h[11] = circular_left(h[7], 12)",
  "        .wrapping_add(xh ^ q[27] ^ m[11])",
  "        .wrapping_add((xl << 4) ^ q[18] ^ q[11]);",
  "    h[12] = circular_left(h[0], 13)",
  "        .wrapping_add(xh ^ q[28] ^ m[12])",
  "        .wrapping_add((xl >> 3) ^ q[19] ^ q[12]);",
  "    h[13] = circular_left(h[1], 14)",
  "        .wrapping_add(xh ^ q[29] ^ m[13])",
  "        .wrapping_add((xl >> 4) ^ q[20] ^ q[13]);",
  "    h[14] = circular_left(h[2], 15)",
  "        .wrapping_add(xh ^ q[30] ^ m[14])",
  "        .wrapping_add((xl >> 7) ^ q[21] ^ q[14]);",
  "    h[15] = circular_left(h[3], 16)",
  "        .wrapping_add(xh ^ q[31] ^ m[15])",
  "        .wrapping_add((xl >> 2) ^ q[22] ^ q[15]);",
  "    b.h[..16].clone_from_slice(&h[..16]);",
  "    b.q[..32].clone_from_slice(&q[..32]);",
  "    b",
  "}",
  "",
  "//sum calculates bmw256.",
  "//length of data must be 32 bytes.",
  "pub fn sum(input: Vec<u8>) -> Vec<u8> {",
  "    let mut b = new();",
  "    let mut buf: Vec<u8> = Vec::with_capacity(64);",
  "    for _i in 0..64 {",
  "        if _i < input.len() {",
  "            buf.push(input[_i]);",
  "        } else {",
  "            buf.push(0);",
  "        }",
  "    }",
  "    buf[input.len()] = 0x80;",
  "    let bit_len = ((input.len() as u64) << 3).to_le_bytes();",
  "    buf[56] = bit_len[0];",
  "    buf[57] = bit_len[1];",
  "    buf[58] = bit_len[2];",
  "    buf[59] = bit_len[3];",
  "    buf[60] = bit_len[4];",
  "    buf[61] = bit_len[5];",
  "    buf[62] = bit_len[6];",
  "    buf[63] = bit_len[7];",
  "    let mut _i = 0;",
  "    for _i in 0..16 {",
  "        let start = 4 * _i;",
  "        let end = start + 4;",
  "        b.m[_i] = read_u32_le(&buf[start..end]);",
  "    }",
  "    let m = b.m;",
  "    let mut b = compress(b, m);",
  "    let h = b.h;",
  "    b.h2[..16].clone_from_slice(&h[..16]);",
  "    b.h[..16].clone_from_slice(&FINAL[..16]);",
  "    let h2 = b.h2;",
  "    let b = compress(b, h2);",
  "    let mut out = vec![];",
  "    out.extend_from_slice(&b.h[8].to_le_bytes());",
  "    out.extend_from_slice(&b.h[9].to_le_bytes());",
  "    out.extend_from_slice(&b.h[10].to_le_bytes());",
  "    out.extend_from_slice(&b.h[11].to_le_bytes());",
  "    out.extend_from_slice(&b.h[12].to_le_bytes());",
  "    out.extend_from_slice(&b.h[13].to_le_bytes());",
  "    out.extend_from_slice(&b.h[14].to_le_bytes());",
  "    out.extend_from_slice(&b.h[15].to_le_bytes());",
  "    out",
  "}",
  "",
  "#[test]",
  "fn bmw_hash_cal() {",
  r#"    let base1 = "abc".as_bytes().to_vec();"#,
  "    let bmw_result1 = sum(base1);",
  "    assert_eq!(",
  r#"        "57d11fc94bdf98e6a0d0bf1d4ddda3f4205e873666a644b5bb585e171ad87d34","#,
  "        bmw_result1",
  "            .iter()",
  r#"            .map(|n| format!("{:02x}", n))"#,
  "            .collect::<String>()",
  "    );",
  "",
  r#"    let base2 = "脇山珠美ちゃんかわいい！".as_bytes().to_vec();"#,
  "    let bmw_result2 = sum(base2);",
  "    assert_eq!(",
  r#"        "034c3defeb35b38e23136ad700885007c0c051cd51cc45170cbbdcd68419214a","#,
  "        bmw_result2",
  "            .iter()",
  r#"            .map(|n| format!("{:02x}", n))"#,
  "            .collect::<String>()",
  "    );",
  "",
  r#"    let base3 = "😀😁😂".as_bytes().to_vec();"#,
  "    let bmw_result3 = sum(base3);",
  "    assert_eq!(",
  r#"        "9978ccbde1db31dcc1bfd7a010d9ae2215e5fb91e9ecaf786be6252c621f60e3","#,
  "        bmw_result3",
  "            .iter()",
  r#"            .map(|n| format!("{:02x}", n))"#,
  "            .collect::<String>()",
  "    );",
  "}",
  ""]

/-- /repo/src/lyra2re.rs -/
def lyra2re : List String := [
  "//! # lyra2re",
  "//!",
  "//! `lyra2re` crate has necessary formulas to calculate `lyra2re`.",
  "use crate::lyra2;",
  "use digest::generic_array::typenum::U32;",
  "use blake_hash::Digest as BlakeDigest;",
  "use sha3::Digest;",
  "",
  "/// Returns the calculation result of lyra2re.",
  "/// # Examples",
  "///",
  "/// ```",
  r#"/// let base1 = "abc".as_bytes().to_vec();"#,
  "/// let lyra2re_result1 = lyra2::lyra2re::sum(base1);",
  "/// assert_eq!(",
  r#"///     "07d3fe93103f6ad4284ad389d4b0a80334c94f5ffd0a537dfc935b3625552317","#,
  "///     lyra2re_result1",
  "///         .iter()",
  r#"///         .map(|n| format!("{:02x}", n))"#,
  "///         .collect::<String>()",
  "/// );",
  "/// ```",
  "pub fn sum(input: Vec<u8>) -> Vec<u8> {",
  "    let result_blake = blake_hash::Blake256::digest(&input).to_vec();",
  "",
  "    let result_keccak256_1 = sha3::Keccak256::digest(result_blake).to_vec();",
  "",
  "    let result_keccak256_2 = result_keccak256_1.clone();",
  "",
  "    let result_lyra2 = lyra2::lyra2(32, result_keccak256_1, result_keccak256_2, 1, 8, 8);",
  "",
  "    let result_skein = skein_hash::Skein512::<U32>::digest(&result_lyra2);",
  "",
  "    groestl::Groestl256::digest(result_skein).to_vec()",
  "}",
  "",
  "#[test]",
  "fn lyra2re_hash_cal() {",
  r#"    let base1 = "abc".as_bytes().to_vec();"#,
  "    let lyra2re_result1 = sum(base1);",
  "    assert_eq!(",
  r#"        "07d3fe93103f6ad4284ad389d4b0a80334c94f5ffd0a537dfc935b3625552317","#,
  "        lyra2re_result1",
  "            .iter()",
  r#"            .map(|n| format!("{:02x}", n))"#,
  "            .collect::<String>()",
  "    );",
  "",
  r#"    let base2 = "脇山珠美ちゃんかわいい！".as_bytes().to_vec();"#,
  "    let lyra2re_result2 = sum(base2);",
  "    assert_eq!(",
  r#"        "8361fd2586e630cf7bc8209fb05d8d24fb549cee19b1c085c2cec79c61c6cc6e","#,
  "        lyra2re_result2",
  "            .iter()",
  r#"            .map(|n| format!("{:02x}", n))"#,
  "            .collect::<String>()",
  "    );",
  "",
  r#"    let base3 = "😀😁😂".as_bytes().to_vec();"#,
  "    let lyra2re_result3 = sum(base3);",
  "    assert_eq!(",
  r#"        "c3afc6db9914ab54f95ddd3daeee4f43f960d431a845de7dcae18544b14e8b8b","#,
  "        lyra2re_result3",
  "            .iter()",
  r#"            .map(|n| format!("{:02x}", n))"#,
  "            .collect::<String>()",
  "    );",
  "}",
  ""]

/-- /repo/src/lyra2rev2.rs -/
def lyra2rev2 : List String := [
  "//! # lyra2rev2",
  "//!",
  "//! `lyra2rev2` crate has necessary formulas to calculate `lyra2rev2`. For monacoin etc...",
  "use crate::bmw;",
  "use crate::cubehash;",
  "use crate::lyra2;",
  "use digest::generic_array::typenum::U32;",
  "use blake_hash::Digest as BlakeDigest;",
  "use sha3::Digest;",
  "",
  "/// Returns the calculation result of lyra2rev2.",
  "/// # Examples",
  "///",
  "/// ```",
  r#"/// let base1 = "abc".as_bytes().to_vec();"#,
  "/// let lyra2rev2_result1 = lyra2::lyra2rev2::sum(base1);",
  "/// assert_eq!(",
  r#"///     "80ec5344227c5d0bfd63038f00c3fe5aecddd1a1122043b0a90b5fd67b1e8f32","#,
  "///     lyra2rev2_result1",
  "///         .iter()",
  r#"///         .map(|n| format!("{:02x}", n))"#,
  "///         .collect::<String>()",
  "/// );",
  "/// ```",
  "pub fn sum(input: Vec<u8>) -> Vec<u8> {",
  "    let result_blake = blake_hash::Blake256::digest(&input).to_vec();",
  "",
  "    let result_keccak256 = sha3::Keccak256::digest(result_blake);",
  "",
  "    let result_cube = cubehash::sum(result_keccak256.to_vec());",
  "",
  "    let result_lyra2 = lyra2::sum(result_cube);",
  "",
  "    let result_skein = skein_hash::Skein512::<U32>::digest(&result_lyra2);",
  "",
  "    let result_cube3 = cubehash::sum(result_skein.to_vec());",
  "",
  "    bmw::sum(result_cube3)",
  "}",
  "",
  "#[test]",
  "fn lyra2rev2_hash_cal() {",
  r#"    let base1 = "abc".as_bytes().to_vec();"#,
  "    let lyra2rev2_result1 = sum(base1);",
  "    assert_eq!(",
  r#"        "80ec5344227c5d0bfd63038f00c3fe5aecddd1a1122043b0a90b5fd67b1e8f32","#,
  "        lyra2rev2_result1",
  "            .iter()",
  r#"            .map(|n| format!("{:02x}", n))"#,
  "            .collect::<String>()",
  "    );",
  "",
  r#"    let base2 = "脇山珠美ちゃんかわいい！".as_bytes().to_vec();"#,
  "    let lyra2rev2_result2 = sum(base2);",
  "    assert_eq!(",
  r#"        "bdaaa569c4f4918da66b02f2d0a2093a51e3d1735ee6023e9a93185c7bff40bc","#,
  "        lyra2rev2_result2",
  "            .iter()",
  r#"            .map(|n| format!("{:02x}", n))"#,
  "            .collect::<String>()",
  "    );",
  "",
  r#"    let base3 = "😀😁😂".as_bytes().to_vec();"#,
  "    let lyra2rev2_result3 = sum(base3);",
  "    assert_eq!(",
  r#"        "f88283ab841272a7c3803a380af32a0805448e9ea2e7c3809c4342afeeb040f1","#,
  "        lyra2rev2_result3",
  "            .iter()",
  r#"            .map(|n| format!("{:02x}", n))"#,
  "            .collect::<String>()",
  "    );",
  "}",
  ""]

/-- /repo/src/lyra2rev3.rs -/
def lyra2rev3 : List String := [
  "//! # lyra2rev3",
  "//!",
  "//! `lyra2rev3` crate has necessary formulas to calculate `lyra2rev3`. For vertcoin etc...",
  "use crate::bmw;",
  "use crate::cubehash;",
  "use crate::lyra2mod;",
  "use blake_hash::Digest;",
  "",
  "/// Returns the calculation result of lyra2rev3.",
  "/// # Examples",
  "///",
  "/// ```",
  r#"/// let base1 = "abc".as_bytes().to_vec();"#,
  "/// let lyra2rev3_result1 = lyra2::lyra2rev3::sum(base1);",
  "/// assert_eq!(",
  r#"///     "4e445087e28d294b3074e98fee860fb73d248a63150ea2d42bfeddd21c0b89ef","#,
  "///     lyra2rev3_result1",
  "///         .iter()",
  r#"///         .map(|n| format!("{:02x}", n))"#,
  "///         .collect::<String>()",
  "/// );",
  "/// ```",
  "pub fn sum(input: Vec<u8>) -> Vec<u8> {",
  "    let result_blake = blake_hash::Blake256::digest(&input).to_vec();",
  "",
  "    let result_lyra2_mod_1 = lyra2mod::sum(result_blake);",
  "",
  "    let result_cube = cubehash::sum(result_lyra2_mod_1);",
  "",
  "    let result_lyra2_mod_2 = lyra2mod::sum(result_cube);",
  "",
  "    bmw::sum(result_lyra2_mod_2)",
  "}",
  "",
  "#[test]",
  "fn lyra2rev3_hash_cal() {",
  r#"    let base1 = "abc".as_bytes().to_vec();"#,
  "    let lyra2rev3_result1 = sum(base1);",
  "    assert_eq!(",
  r#"        "4e445087e28d294b3074e98fee860fb73d248a63150ea2d42bfeddd21c0b89ef","#,
  "        lyra2rev3_result1",
  "            .iter()",
  r#"            .map(|n| format!("{:02x}", n))"#,
  "            .collect::<String>()",
  "    );",
  "",
  r#"    let base2 = "脇山珠美ちゃんかわいい！".as_bytes().to_vec();"#,
  "    let lyra2rev3_result2 = sum(base2);",
  "    assert_eq!(",
  r#"        "322b5d87289dca02e50c882314ee6a43efd91579ca4717ff49715f4bb039fd78","#,
  "        lyra2rev3_result2",
  "            .iter()",
  r#"            .map(|n| format!("{:02x}", n))"#,
  "            .collect::<String>()",
  "    );",
  "",
  r#"    let base3 = "😀😁😂".as_bytes().to_vec();"#,
  "    let lyra2rev3_result3 = sum(base3);",
  "    assert_eq!(",
  r#"        "22cb37cae128d61e3060bf45189ba9b206755728596fc8b054c5712b68c12bcb","#,
  "        lyra2rev3_result3",
  "            .iter()",
  r#"            .map(|n| format!("{:02x}", n))"#,
  "            .collect::<String>()",
  "    );",
  "}",
  ""]

/-- /repo/src/lyra2z.rs -/
def lyra2z : List String := [
  "//! # lyra2z",
  "//!",
  "//! `lyra2z` crate has necessary formulas to calculate `lyra2z`.",
  "use crate::lyra2;",
  "use blake_hash::Digest;",
  "",
  "/// Returns the calculation result of lyra2z.",
  "/// # Examples",
  "///",
  "/// ```",
  r#"/// let base1 = "abc".as_bytes().to_vec();"#,
  "/// let lyra2z_result1 = lyra2::lyra2z::sum(base1);",
  "/// assert_eq!(",
  r#"///     "cf9d13829886efd875cb0d01e44a80288d478346dd721fac0e6e04fe5774879c","#,
  "///     lyra2z_result1",
  "///         .iter()",
  r#"///         .map(|n| format!("{:02x}", n))"#,
  "///         .collect::<String>()",
  "/// );",
  "/// ```",
  "pub fn sum(input: Vec<u8>) -> Vec<u8> {",
  "    let result_blake_1 = blake_hash::Blake256::digest(&input).to_vec();",
  "",
  "    let result_blake_2 = result_blake_1.clone();",
  "",
  "    lyra2::lyra2(32, result_blake_1, result_blake_2, 8, 8, 8)",
  "}",
  "",
  "#[test]",
  "fn lyra2z_hash_cal() {",
  r#"    let base1 = "abc".as_bytes().to_vec();"#,
  "    let lyra2z_result1 = sum(base1);",
  "    assert_eq!(",
  r#"        "cf9d13829886efd875cb0d01e44a80288d478346dd721fac0e6e04fe5774879c","#,
  "        lyra2z_result1",
  "            .iter()",
  r#"            .map(|n| format!("{:02x}", n))"#,
  "            .collect::<String>()",
  "    );",
  "",
  r#"    let base2 = "脇山珠美ちゃんかわいい！".as_bytes().to_vec();"#,
  "    let lyra2z_result2 = sum(base2);",
  "    assert_eq!(",
  r#"        "576aa33e47af09af117373008cfd98b452d605e1eab6f6fe173235a3b454e059","#,
  "        lyra2z_result2",
  "            .iter()",
  r#"            .map(|n| format!("{:02x}", n))"#,
  "            .collect::<String>()",
  "    );",
  "",
  r#"    let base3 = "😀😁😂".as_bytes().to_vec();"#,
  "    let lyra2z_result3 = sum(base3);",
  "    assert_eq!(",
  r#"        "a226bea4d989b5eaf482c493921aff2608729d4cd9a1d6dda668b45b2fe02c8e","#,
  "        lyra2z_result3",
  "            .iter()",
  r#"            .map(|n| format!("{:02x}", n))"#,
  "            .collect::<String>()",
  "    );",
  "}",
  ""]

end Source.Text
