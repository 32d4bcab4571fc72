import Verif.C.Matrix
import Verif.Text.Lines
import Verif.Text.Generic

/-! # The text of /repo/src/aes/aes_c.c and /repo/src/aes/aes.c

Carriage returns at the ends of lines are left out, as Lean reads its sources without them. -/

namespace Frodo.Src

set_option maxRecDepth 20000 in
/-- /repo/src/aes/aes.h:1-74, verbatim. -/
def aesHText : List (List Char) := c_text r#"/********************************************************************************************
* Header defining the APIs for AES
*
* If USE_OPENSSL flag is defined it uses OpenSSL's AES implementation. 
* Otherwise, it uses a standalone implementation
*********************************************************************************************/

#ifndef __AES_H
#define __AES_H

#include <stdint.h>
#include <stdlib.h>
#include "../config.h"


#ifndef USE_OPENSSL
/**
 * Function to fill a key schedule given an initial key.
 *
 * @param key            Initial Key.
 * @param schedule       Abstract data structure for a key schedule.
 */
void AES128_load_schedule(const uint8_t *key, uint8_t *schedule);

/**
 * Same as AES128_ECB_enc() except a schedule generated by
 * AES128_load_schedule() is passed rather than a key. This is faster
 * if the same schedule is used for multiple encryptions since it does
 * not have to be regenerated from the key.
 */
void AES128_ECB_enc_sch(const uint8_t *plaintext, const size_t plaintext_len, const uint8_t *schedule, uint8_t *ciphertext);

/**
 * Function to free a key schedule.
 *
 * @param schedule       Schedule generated with AES128_load_schedule().
 */
void AES128_free_schedule(uint8_t *schedule);

/**
 * Function to fill a key schedule given an initial key.
 *
 * @param key            Initial Key.
 * @param schedule       Abstract data structure for a key schedule.
 */
void AES256_load_schedule(const uint8_t *key, uint8_t *schedule);

/**
 * Same as AES256_ECB_enc() except a schedule generated by
 * AES256_load_schedule() is passed rather than a key. This is faster
 * if the same schedule is used for multiple encryptions since it does
 * not have to be regenerated from the key.
 */
void AES256_ECB_enc_sch(const uint8_t *plaintext, const size_t plaintext_len, const uint8_t *schedule, uint8_t *ciphertext);

/**
 * Function to free a key schedule.
 *
 * @param schedule       Schedule generated with AES256_load_schedule().
 */
void AES256_free_schedule(uint8_t *schedule);

#else  // Use OpenSSL's AES implementation

#include <openssl/conf.h>
#include <openssl/evp.h>
#include <openssl/err.h>
void handleErrors(void);
void AES128_free_schedule(EVP_CIPHER_CTX *schedule);
void AES256_free_schedule(EVP_CIPHER_CTX *schedule);

#endif

#endif
"#

set_option maxRecDepth 20000 in
/-- /repo/src/aes/aes_local.h:1-22, verbatim. -/
def aesLocalText : List (List Char) := c_text r#"/**
 * \file aes_local.h
 * \brief Header defining additional internal functions for AES
 */

#ifndef AES_LOCAL_H
#define AES_LOCAL_H

#include <stdint.h>
#include <stdlib.h>

void aes128_load_schedule_ni(const uint8_t *key, uint8_t *schedule);
void aes256_load_schedule_ni(const uint8_t *key, uint8_t *schedule);
void aes128_enc_ni(const uint8_t *plaintext, const uint8_t *schedule, uint8_t *ciphertext);
void aes256_enc_ni(const uint8_t *plaintext, const uint8_t *schedule, uint8_t *ciphertext);

void aes128_load_schedule_c(const uint8_t *key, uint8_t *schedule);
void aes256_load_schedule_c(const uint8_t *key, uint8_t *schedule);
void aes128_enc_c(const uint8_t *plaintext, const uint8_t *schedule, uint8_t *ciphertext);
void aes256_enc_c(const uint8_t *plaintext, const uint8_t *schedule, uint8_t *ciphertext);

#endif
"#

set_option maxRecDepth 20000 in
/-- /repo/src/aes/aes_c.c:1-333, verbatim. -/
def aesCText : List (List Char) := c_text r#"// Public domain AES implementation "tiny-AES"
// https://github.com/kokke/tiny-AES-c
//
// This is a slightly modified version.

#include <string.h>
#include "aes.h"


/*****************************************************************************/
/* Defines:                                                                  */
/*****************************************************************************/
// The number of columns comprising a state in AES. This is a constant in AES. Value=4
#define Nb 4


/*****************************************************************************/
/* Private variables:                                                        */
/*****************************************************************************/
// state - array holding the intermediate results during decryption.
typedef uint8_t state_t[4][4];
static state_t* state;

// The lookup-tables are marked const so they can be placed in read-only storage instead of RAM
// The numbers below can be computed dynamically trading ROM for RAM -
// This can be useful in (embedded) bootloader applications, where ROM is often limited.
static const uint8_t sbox[256] = {
  //0     1    2      3     4    5     6     7      8    9     A      B    C     D     E     F
  0x63, 0x7c, 0x77, 0x7b, 0xf2, 0x6b, 0x6f, 0xc5, 0x30, 0x01, 0x67, 0x2b, 0xfe, 0xd7, 0xab, 0x76,
  0xca, 0x82, 0xc9, 0x7d, 0xfa, 0x59, 0x47, 0xf0, 0xad, 0xd4, 0xa2, 0xaf, 0x9c, 0xa4, 0x72, 0xc0,
  0xb7, 0xfd, 0x93, 0x26, 0x36, 0x3f, 0xf7, 0xcc, 0x34, 0xa5, 0xe5, 0xf1, 0x71, 0xd8, 0x31, 0x15,
  0x04, 0xc7, 0x23, 0xc3, 0x18, 0x96, 0x05, 0x9a, 0x07, 0x12, 0x80, 0xe2, 0xeb, 0x27, 0xb2, 0x75,
  0x09, 0x83, 0x2c, 0x1a, 0x1b, 0x6e, 0x5a, 0xa0, 0x52, 0x3b, 0xd6, 0xb3, 0x29, 0xe3, 0x2f, 0x84,
  0x53, 0xd1, 0x00, 0xed, 0x20, 0xfc, 0xb1, 0x5b, 0x6a, 0xcb, 0xbe, 0x39, 0x4a, 0x4c, 0x58, 0xcf,
  0xd0, 0xef, 0xaa, 0xfb, 0x43, 0x4d, 0x33, 0x85, 0x45, 0xf9, 0x02, 0x7f, 0x50, 0x3c, 0x9f, 0xa8,
  0x51, 0xa3, 0x40, 0x8f, 0x92, 0x9d, 0x38, 0xf5, 0xbc, 0xb6, 0xda, 0x21, 0x10, 0xff, 0xf3, 0xd2,
  0xcd, 0x0c, 0x13, 0xec, 0x5f, 0x97, 0x44, 0x17, 0xc4, 0xa7, 0x7e, 0x3d, 0x64, 0x5d, 0x19, 0x73,
  0x60, 0x81, 0x4f, 0xdc, 0x22, 0x2a, 0x90, 0x88, 0x46, 0xee, 0xb8, 0x14, 0xde, 0x5e, 0x0b, 0xdb,
  0xe0, 0x32, 0x3a, 0x0a, 0x49, 0x06, 0x24, 0x5c, 0xc2, 0xd3, 0xac, 0x62, 0x91, 0x95, 0xe4, 0x79,
  0xe7, 0xc8, 0x37, 0x6d, 0x8d, 0xd5, 0x4e, 0xa9, 0x6c, 0x56, 0xf4, 0xea, 0x65, 0x7a, 0xae, 0x08,
  0xba, 0x78, 0x25, 0x2e, 0x1c, 0xa6, 0xb4, 0xc6, 0xe8, 0xdd, 0x74, 0x1f, 0x4b, 0xbd, 0x8b, 0x8a,
  0x70, 0x3e, 0xb5, 0x66, 0x48, 0x03, 0xf6, 0x0e, 0x61, 0x35, 0x57, 0xb9, 0x86, 0xc1, 0x1d, 0x9e,
  0xe1, 0xf8, 0x98, 0x11, 0x69, 0xd9, 0x8e, 0x94, 0x9b, 0x1e, 0x87, 0xe9, 0xce, 0x55, 0x28, 0xdf,
  0x8c, 0xa1, 0x89, 0x0d, 0xbf, 0xe6, 0x42, 0x68, 0x41, 0x99, 0x2d, 0x0f, 0xb0, 0x54, 0xbb, 0x16 };

// The round constant word array, Rcon[i], contains the values given by
// x to th e power (i-1) being powers of x (x is denoted as {02}) in the field GF(2^8)
static const uint8_t Rcon[11] = { 0x8d, 0x01, 0x02, 0x04, 0x08, 0x10, 0x20, 0x40, 0x80, 0x1b, 0x36 };


static uint8_t getSBoxValue(uint8_t num)
{
  return sbox[num];
}


// This function produces Nb(Nr+1) round keys. The round keys are used in each round to decrypt the states.
void aes128_load_schedule_c(uint8_t* Key, uint8_t* RoundKey) 
{
  uint32_t i, k;
  uint8_t tempa[4]; // Used for the column/row operations
  uint32_t Nk = 4;
  uint32_t Nr = 10;

  // The first round key is the key itself.
  for (i = 0; i < Nk; ++i)
  {
    RoundKey[(i * 4) + 0] = Key[(i * 4) + 0];
    RoundKey[(i * 4) + 1] = Key[(i * 4) + 1];
    RoundKey[(i * 4) + 2] = Key[(i * 4) + 2];
    RoundKey[(i * 4) + 3] = Key[(i * 4) + 3];
  }

  // All other round keys are found from the previous round keys.
  //i == Nk
  for (; i < Nb * (Nr + 1); ++i)
  {
    {
      tempa[0]=RoundKey[(i-1) * 4 + 0];
      tempa[1]=RoundKey[(i-1) * 4 + 1];
      tempa[2]=RoundKey[(i-1) * 4 + 2];
      tempa[3]=RoundKey[(i-1) * 4 + 3];
    }

    if (i % Nk == 0)
    {
      // This function shifts the 4 bytes in a word to the left once.
      // [a0,a1,a2,a3] becomes [a1,a2,a3,a0]

      // Function RotWord()
      {
        k = tempa[0];
        tempa[0] = tempa[1];
        tempa[1] = tempa[2];
        tempa[2] = tempa[3];
        tempa[3] = k;
      }

      // SubWord() is a function that takes a four-byte input word and
      // applies the S-box to each of the four bytes to produce an output word.

      // Function Subword()
      {
        tempa[0] = getSBoxValue(tempa[0]);
        tempa[1] = getSBoxValue(tempa[1]);
        tempa[2] = getSBoxValue(tempa[2]);
        tempa[3] = getSBoxValue(tempa[3]);
      }

      tempa[0] =  tempa[0] ^ Rcon[i/Nk];
    }
    if (i % Nk == 4)
    {
      // Function Subword()
      {
        tempa[0] = getSBoxValue(tempa[0]);
        tempa[1] = getSBoxValue(tempa[1]);
        tempa[2] = getSBoxValue(tempa[2]);
        tempa[3] = getSBoxValue(tempa[3]);
      }
    }
    RoundKey[i * 4 + 0] = RoundKey[(i - Nk) * 4 + 0] ^ tempa[0];
    RoundKey[i * 4 + 1] = RoundKey[(i - Nk) * 4 + 1] ^ tempa[1];
    RoundKey[i * 4 + 2] = RoundKey[(i - Nk) * 4 + 2] ^ tempa[2];
    RoundKey[i * 4 + 3] = RoundKey[(i - Nk) * 4 + 3] ^ tempa[3];
  }
}


// This function produces Nb(Nr+1) round keys. The round keys are used in each round to decrypt the states.
void aes256_load_schedule_c(const uint8_t* Key, uint8_t* RoundKey) 
{
  uint32_t i, k;
  uint8_t tempa[4]; // Used for the column/row operations
  uint32_t Nk = 8;
  uint32_t Nr = 14;

  // The first round key is the key itself.
  for (i = 0; i < Nk; ++i)
  {
    RoundKey[(i * 4) + 0] = Key[(i * 4) + 0];
    RoundKey[(i * 4) + 1] = Key[(i * 4) + 1];
    RoundKey[(i * 4) + 2] = Key[(i * 4) + 2];
    RoundKey[(i * 4) + 3] = Key[(i * 4) + 3];
  }

  // All other round keys are found from the previous round keys.
  //i == Nk
  for (; i < Nb * (Nr + 1); ++i)
  {
    {
      tempa[0]=RoundKey[(i-1) * 4 + 0];
      tempa[1]=RoundKey[(i-1) * 4 + 1];
      tempa[2]=RoundKey[(i-1) * 4 + 2];
      tempa[3]=RoundKey[(i-1) * 4 + 3];
    }

    if (i % Nk == 0)
    {
      // This function shifts the 4 bytes in a word to the left once.
      // [a0,a1,a2,a3] becomes [a1,a2,a3,a0]

      // Function RotWord()
      {
        k = tempa[0];
        tempa[0] = tempa[1];
        tempa[1] = tempa[2];
        tempa[2] = tempa[3];
        tempa[3] = k;
      }

      // SubWord() is a function that takes a four-byte input word and
      // applies the S-box to each of the four bytes to produce an output word.

      // Function Subword()
      {
        tempa[0] = getSBoxValue(tempa[0]);
        tempa[1] = getSBoxValue(tempa[1]);
        tempa[2] = getSBoxValue(tempa[2]);
        tempa[3] = getSBoxValue(tempa[3]);
      }

      tempa[0] =  tempa[0] ^ Rcon[i/Nk];
    }
    if (i % Nk == 4)
    {
      // Function Subword()
      {
        tempa[0] = getSBoxValue(tempa[0]);
        tempa[1] = getSBoxValue(tempa[1]);
        tempa[2] = getSBoxValue(tempa[2]);
        tempa[3] = getSBoxValue(tempa[3]);
      }
    }
    RoundKey[i * 4 + 0] = RoundKey[(i - Nk) * 4 + 0] ^ tempa[0];
    RoundKey[i * 4 + 1] = RoundKey[(i - Nk) * 4 + 1] ^ tempa[1];
    RoundKey[i * 4 + 2] = RoundKey[(i - Nk) * 4 + 2] ^ tempa[2];
    RoundKey[i * 4 + 3] = RoundKey[(i - Nk) * 4 + 3] ^ tempa[3];
  }
}


// This function adds the round key to state.
// The round key is added to the state by an XOR function.
static void AddRoundKey(const uint8_t* RoundKey, uint8_t round)
{
  uint8_t i,j;
  for (i=0;i<4;++i)
  {
    for (j = 0; j < 4; ++j)
    {
      (*state)[i][j] ^= RoundKey[round * Nb * 4 + i * Nb + j];
    }
  }
}


// The SubBytes Function Substitutes the values in the
// state matrix with values in an S-box.
static void SubBytes(void)
{
  uint8_t i, j;
  for (i = 0; i < 4; ++i)
  {
    for (j = 0; j < 4; ++j)
    {
      (*state)[j][i] = getSBoxValue((*state)[j][i]);
    }
  }
}


// The ShiftRows() function shifts the rows in the state to the left.
// Each row is shifted with different offset.
// Offset = Row number. So the first row is not shifted.
static void ShiftRows(void)
{
  uint8_t temp;

  // Rotate first row 1 columns to left
  temp           = (*state)[0][1];
  (*state)[0][1] = (*state)[1][1];
  (*state)[1][1] = (*state)[2][1];
  (*state)[2][1] = (*state)[3][1];
  (*state)[3][1] = temp;

  // Rotate second row 2 columns to left
  temp           = (*state)[0][2];
  (*state)[0][2] = (*state)[2][2];
  (*state)[2][2] = temp;

  temp           = (*state)[1][2];
  (*state)[1][2] = (*state)[3][2];
  (*state)[3][2] = temp;

  // Rotate third row 3 columns to left
  temp           = (*state)[0][3];
  (*state)[0][3] = (*state)[3][3];
  (*state)[3][3] = (*state)[2][3];
  (*state)[2][3] = (*state)[1][3];
  (*state)[1][3] = temp;
}


static uint8_t xtime(uint8_t x)
{
  return ((x<<1) ^ (((x>>7) & 1) * 0x1b));
}


// MixColumns function mixes the columns of the state matrix
static void MixColumns(void)
{
  uint8_t i;
  uint8_t Tmp,Tm,t;
  for (i = 0; i < 4; ++i)
  {
    t   = (*state)[i][0];
    Tmp = (*state)[i][0] ^ (*state)[i][1] ^ (*state)[i][2] ^ (*state)[i][3] ;
    Tm  = (*state)[i][0] ^ (*state)[i][1] ; Tm = xtime(Tm);  (*state)[i][0] ^= Tm ^ Tmp ;
    Tm  = (*state)[i][1] ^ (*state)[i][2] ; Tm = xtime(Tm);  (*state)[i][1] ^= Tm ^ Tmp ;
    Tm  = (*state)[i][2] ^ (*state)[i][3] ; Tm = xtime(Tm);  (*state)[i][2] ^= Tm ^ Tmp ;
    Tm  = (*state)[i][3] ^ t ;              Tm = xtime(Tm);  (*state)[i][3] ^= Tm ^ Tmp ;
  }
}


// Cipher is the main function that encrypts the PlainText.
static void Cipher(const uint8_t* RoundKey, uint32_t Nr)
{
  uint8_t round = 0;

  // Add the First round key to the state before starting the rounds.
  AddRoundKey(RoundKey, 0);

  // There will be Nr rounds.
  // The first Nr-1 rounds are identical.
  // These Nr-1 rounds are executed in the loop below.
  for (round = 1; round < Nr; ++round)
  {
    SubBytes();
    ShiftRows();
    MixColumns();
    AddRoundKey(RoundKey, round);
  }

  // The last round is given below.
  // The MixColumns function is not here in the last round.
  SubBytes();
  ShiftRows();
  AddRoundKey(RoundKey, Nr);
}


void aes128_enc_c(const uint8_t* input, const uint8_t* schedule, uint8_t* output)
{
  memcpy(output, input, 16);
  state = (state_t*)output;

  // The next function call encrypts the PlainText with the Key using AES algorithm.
  Cipher(schedule, 10);
}


void aes256_enc_c(const uint8_t* input, const uint8_t* schedule, uint8_t* output)
{
  // Copy input to output, and work in-memory on output
  memcpy(output, input, 16);
  state = (state_t*)output;

  // The next function call encrypts the PlainText with the Key using AES algorithm.
  Cipher(schedule, 14);
}
"#

set_option maxRecDepth 20000 in
/-- /repo/src/aes/aes.c:1-96, verbatim. -/
def aesText : List (List Char) := c_text r#"/********************************************************************************************
* Functions for AES
*
* If USE_OPENSSL flag is defined it uses OpenSSL's AES implementation. 
* Otherwise, it uses a standalone implementation
*********************************************************************************************/

#include <assert.h>
#include <string.h>
#include "aes.h"
#include "aes_local.h"


#ifndef USE_OPENSSL

void AES128_load_schedule(const uint8_t *key, uint8_t *schedule) {
#ifdef AES_ENABLE_NI
    aes128_load_schedule_ni(key, schedule);
#else
    aes128_load_schedule_c(key, schedule);
#endif
}


static inline void aes128_enc(const uint8_t *plaintext, const uint8_t *schedule, uint8_t *ciphertext) {
#ifdef AES_ENABLE_NI
    aes128_enc_ni(plaintext, schedule, ciphertext);
#else
    aes128_enc_c(plaintext, schedule, ciphertext);
#endif
}
     

void AES128_ECB_enc_sch(const uint8_t *plaintext, const size_t plaintext_len, const uint8_t *schedule, uint8_t *ciphertext) {
    assert(plaintext_len % 16 == 0);
    for (size_t block = 0; block < plaintext_len / 16; block++) {
        aes128_enc(plaintext + (16 * block), schedule, ciphertext + (16 * block));
    }
}


void AES128_free_schedule(uint8_t *schedule) {
    memset(schedule, 0, 16*11);
}


void AES256_load_schedule(const uint8_t *key, uint8_t *schedule) {
#ifdef AES_ENABLE_NI
    aes256_load_schedule_ni(key, schedule);
#else
    aes256_load_schedule_c(key, schedule);
#endif
}


static inline void aes256_enc(const uint8_t *plaintext, const uint8_t *schedule, uint8_t *ciphertext) {
#ifdef AES_ENABLE_NI
    aes256_enc_ni(plaintext, schedule, ciphertext);
#else
    aes256_enc_c(plaintext, schedule, ciphertext);
#endif
}
     

void AES256_ECB_enc_sch(const uint8_t *plaintext, const size_t plaintext_len, const uint8_t *schedule, uint8_t *ciphertext) {
    assert(plaintext_len % 16 == 0);
    for (size_t block = 0; block < plaintext_len / 16; block++) {
        aes256_enc(plaintext + (16 * block), schedule, ciphertext + (16 * block));
    }
}


void AES256_free_schedule(uint8_t *schedule) {
    memset(schedule, 0, 16*15);
}

#else  // Use OpenSSL's AES implementation

void handleErrors(void)
{
    ERR_print_errors_fp(stderr);
    abort();
}


void AES128_free_schedule(EVP_CIPHER_CTX *schedule) {
    EVP_CIPHER_CTX_free(schedule);
}


void AES256_free_schedule(EVP_CIPHER_CTX *schedule) {
    EVP_CIPHER_CTX_free(schedule);
}


#endif
"#

/-- The headers that the files of /repo/src/aes include (/repo/src/aes/aes.c:10-11, /repo/src/aes/aes_c.c:7, /repo/src/aes/aes.h:13). -/
def aesSources : Includes := [incl w!"aes.h" aesHText, incl w!"aes_local.h" aesLocalText, incl w!"../config.h" configText]

/-- The tokens of /repo/src/aes/aes_c.c after preprocessing. -/
def aesCTokens : List Tok := tokens% preprocess optAes aesSources aesCText

theorem aesC_tokens : preprocess optAes aesSources aesCText = some aesCTokens := by kernel_rfl

/-- What `aesCText` parses to (/repo/src/aes/aes_c.c:1-333). -/
def aesCFile : File := parsed% pFile 1000 (matrices aesCTokens)

theorem aesC_file : pFile 1000 (matrices aesCTokens) = some aesCFile := by kernel_rfl

theorem aesC_parse : parseMatrix optAes aesSources aesCText = some aesCFile := parseMatrix_eq aesC_tokens aesC_file

/-- What `aesText` parses to, without `AES_ENABLE_NI` (/repo/src/aes/aes.c:1-96). -/
def aesFile : File := parsed% parseText optAes aesSources aesText

theorem aes_parse : parseText optAes aesSources aesText = some aesFile := by kernel_rfl

/-- `getSBoxValue` (/repo/src/aes/aes_c.c:51-54). -/
def getSBoxValueFun : Fun := function% aesCFile.fn "getSBoxValue"
/-- `aes128_load_schedule_c` (/repo/src/aes/aes_c.c:58-127). -/
def aes128_load_schedule_cFun : Fun := function% aesCFile.fn "aes128_load_schedule_c"
/-- `aes256_load_schedule_c` (/repo/src/aes/aes_c.c:131-200). -/
def aes256_load_schedule_cFun : Fun := function% aesCFile.fn "aes256_load_schedule_c"
/-- `AddRoundKey` (/repo/src/aes/aes_c.c:205-215). -/
def AddRoundKeyFun : Fun := function% aesCFile.fn "AddRoundKey"
/-- `SubBytes` (/repo/src/aes/aes_c.c:220-230). -/
def SubBytesFun : Fun := function% aesCFile.fn "SubBytes"
/-- `ShiftRows` (/repo/src/aes/aes_c.c:236-262). -/
def ShiftRowsFun : Fun := function% aesCFile.fn "ShiftRows"
/-- `xtime` (/repo/src/aes/aes_c.c:265-268). -/
def xtimeFun : Fun := function% aesCFile.fn "xtime"
/-- `MixColumns` (/repo/src/aes/aes_c.c:272-285). -/
def MixColumnsFun : Fun := function% aesCFile.fn "MixColumns"
/-- `Cipher` (/repo/src/aes/aes_c.c:289-312). -/
def CipherFun : Fun := function% aesCFile.fn "Cipher"
/-- `aes128_enc_c` (/repo/src/aes/aes_c.c:315-322). -/
def aes128_enc_cFun : Fun := function% aesCFile.fn "aes128_enc_c"
/-- `aes256_enc_c` (/repo/src/aes/aes_c.c:325-333). -/
def aes256_enc_cFun : Fun := function% aesCFile.fn "aes256_enc_c"
/-- `AES128_load_schedule` (/repo/src/aes/aes.c:16-22). -/
def AES128_load_scheduleFun : Fun := function% aesFile.fn "AES128_load_schedule"
/-- `aes128_enc` (/repo/src/aes/aes.c:25-31). -/
def aes128_encFun : Fun := function% aesFile.fn "aes128_enc"
/-- `AES128_ECB_enc_sch` (/repo/src/aes/aes.c:34-39). -/
def AES128_ECB_enc_schFun : Fun := function% aesFile.fn "AES128_ECB_enc_sch"
/-- `AES128_free_schedule` (/repo/src/aes/aes.c:42-44). -/
def AES128_free_scheduleFun : Fun := function% aesFile.fn "AES128_free_schedule"
/-- `AES256_load_schedule` (/repo/src/aes/aes.c:47-53). -/
def AES256_load_scheduleFun : Fun := function% aesFile.fn "AES256_load_schedule"
/-- `aes256_enc` (/repo/src/aes/aes.c:56-62). -/
def aes256_encFun : Fun := function% aesFile.fn "aes256_enc"
/-- `AES256_ECB_enc_sch` (/repo/src/aes/aes.c:65-70). -/
def AES256_ECB_enc_schFun : Fun := function% aesFile.fn "AES256_ECB_enc_sch"
/-- `AES256_free_schedule` (/repo/src/aes/aes.c:73-75). -/
def AES256_free_scheduleFun : Fun := function% aesFile.fn "AES256_free_schedule"

theorem aesC_getSBoxValue : aesCFile.fn "getSBoxValue" = some getSBoxValueFun := by kernel_rfl
theorem aesC_aes128_load_schedule_c : aesCFile.fn "aes128_load_schedule_c" = some aes128_load_schedule_cFun := by kernel_rfl
theorem aesC_aes256_load_schedule_c : aesCFile.fn "aes256_load_schedule_c" = some aes256_load_schedule_cFun := by kernel_rfl
theorem aesC_AddRoundKey : aesCFile.fn "AddRoundKey" = some AddRoundKeyFun := by kernel_rfl
theorem aesC_SubBytes : aesCFile.fn "SubBytes" = some SubBytesFun := by kernel_rfl
theorem aesC_ShiftRows : aesCFile.fn "ShiftRows" = some ShiftRowsFun := by kernel_rfl
theorem aesC_xtime : aesCFile.fn "xtime" = some xtimeFun := by kernel_rfl
theorem aesC_MixColumns : aesCFile.fn "MixColumns" = some MixColumnsFun := by kernel_rfl
theorem aesC_Cipher : aesCFile.fn "Cipher" = some CipherFun := by kernel_rfl
theorem aesC_aes128_enc_c : aesCFile.fn "aes128_enc_c" = some aes128_enc_cFun := by kernel_rfl
theorem aesC_aes256_enc_c : aesCFile.fn "aes256_enc_c" = some aes256_enc_cFun := by kernel_rfl
theorem aes_AES128_load_schedule : aesFile.fn "AES128_load_schedule" = some AES128_load_scheduleFun := by kernel_rfl
theorem aes_aes128_enc : aesFile.fn "aes128_enc" = some aes128_encFun := by kernel_rfl
theorem aes_AES128_ECB_enc_sch : aesFile.fn "AES128_ECB_enc_sch" = some AES128_ECB_enc_schFun := by kernel_rfl
theorem aes_AES128_free_schedule : aesFile.fn "AES128_free_schedule" = some AES128_free_scheduleFun := by kernel_rfl
theorem aes_AES256_load_schedule : aesFile.fn "AES256_load_schedule" = some AES256_load_scheduleFun := by kernel_rfl
theorem aes_aes256_enc : aesFile.fn "aes256_enc" = some aes256_encFun := by kernel_rfl
theorem aes_AES256_ECB_enc_sch : aesFile.fn "AES256_ECB_enc_sch" = some AES256_ECB_enc_schFun := by kernel_rfl
theorem aes_AES256_free_schedule : aesFile.fn "AES256_free_schedule" = some AES256_free_scheduleFun := by kernel_rfl

end Frodo.Src
