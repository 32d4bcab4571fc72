import Verif.C.Struct
import Verif.Text.Aes
import Verif.Text.Random

/-! # The text of /repo/tests/rng.c and /repo/tests/rng.h

Carriage returns at the ends of lines are left out, as Lean reads its sources without them. -/

namespace Frodo.Src

set_option maxRecDepth 20000 in
/-- /repo/tests/rng.h:1-72, verbatim. -/
def rngHText : List (List Char) := c_text r#"//
//  rng.h
//
//  Created by Bassham, Lawrence E (Fed) on 8/29/17.
//  Copyright © 2017 Bassham, Lawrence E (Fed). All rights reserved.
//
//  Modified to use OpenSSL's AES256_ECB or a standalone implementation

#ifndef rng_h
#define rng_h

#include <stdio.h>
#include "../src/aes/aes.h"

#define RNG_SUCCESS      0
#define RNG_BAD_MAXLEN  -1
#define RNG_BAD_OUTBUF  -2
#define RNG_BAD_REQ_LEN -3

static __inline void AES256_ECB(unsigned char *key, unsigned char *ctr, unsigned char *buffer) {
#if !defined(USE_OPENSSL)
    uint8_t schedule[16*15];
    AES256_load_schedule(key, schedule);
    AES256_ECB_enc_sch(ctr, 16, schedule, buffer);
    AES256_free_schedule(schedule);
#else
    EVP_CIPHER_CTX *ctx;    
    int len; 
    
    /* Create and initialise the context */
    if(!(ctx = EVP_CIPHER_CTX_new())) handleErrors();
    
    if(1 != EVP_EncryptInit_ex(ctx, EVP_aes_256_ecb(), NULL, key, NULL))
        handleErrors();
    
    if(1 != EVP_EncryptUpdate(ctx, buffer, &len, ctr, 16))
        handleErrors();
    
    /* Clean up */
    EVP_CIPHER_CTX_free(ctx);
#endif    
}

typedef struct {
    unsigned char   buffer[16];
    int             buffer_pos;
    unsigned long   length_remaining;
    unsigned char   key[32];
    unsigned char   ctr[16];
} AES_XOF_struct;

typedef struct {
    unsigned char   Key[32];
    unsigned char   V[16];
    int             reseed_counter;
} AES256_CTR_DRBG_struct;


void
AES256_CTR_DRBG_Update(unsigned char *provided_data,
                       unsigned char *Key,
                       unsigned char *V);

void
randombytes_init(unsigned char *entropy_input,
                 unsigned char *personalization_string,
                 int security_strength);

int
randombytes(unsigned char *x, unsigned long long xlen);

#endif /* rng_h */"#

set_option maxRecDepth 20000 in
/-- /repo/tests/rng.c:1-99, verbatim. -/
def rngText : List (List Char) := c_text r#"//
//  rng.c
//
//  Created by Bassham, Lawrence E (Fed) on 8/29/17.
//  Copyright © 2017 Bassham, Lawrence E (Fed). All rights reserved.
//
//  Modified to use OpenSSL's AES256_ECB or a standalone implementation

#include <string.h>
#include "rng.h"

AES256_CTR_DRBG_struct  DRBG_ctx;

void
randombytes_init(unsigned char *entropy_input,
                 unsigned char *personalization_string,
                 int security_strength)
{
    unsigned char   seed_material[48];
    
    (void)security_strength;  // Unused parameter
    memcpy(seed_material, entropy_input, 48);
    if (personalization_string)
        for (int i=0; i<48; i++)
            seed_material[i] ^= personalization_string[i];
    memset(DRBG_ctx.Key, 0x00, 32);
    memset(DRBG_ctx.V, 0x00, 16);
    AES256_CTR_DRBG_Update(seed_material, DRBG_ctx.Key, DRBG_ctx.V);
    DRBG_ctx.reseed_counter = 1;
}

int
randombytes(unsigned char *x, unsigned long long xlen)
{
    unsigned char   block[16];
    int             i = 0;
    
    while ( xlen > 0 ) {
        //increment V
        for (int j=15; j>=0; j--) {
            if ( DRBG_ctx.V[j] == 0xff )
                DRBG_ctx.V[j] = 0x00;
            else {
                DRBG_ctx.V[j]++;
                break;
            }
        }
        AES256_ECB(DRBG_ctx.Key, DRBG_ctx.V, block);
        if ( xlen > 15 ) {
            memcpy(x+i, block, 16);
            i += 16;
            xlen -= 16;
        }
        else {
            memcpy(x+i, block, xlen);
            xlen = 0;
        }
    }
    AES256_CTR_DRBG_Update(NULL, DRBG_ctx.Key, DRBG_ctx.V);
    DRBG_ctx.reseed_counter++;
    
    return RNG_SUCCESS;
}

void
AES256_CTR_DRBG_Update(unsigned char *provided_data,
                       unsigned char *Key,
                       unsigned char *V)
{
    unsigned char   temp[48];
    
    for (int i=0; i<3; i++) {
        //increment V
        for (int j=15; j>=0; j--) {
            if ( V[j] == 0xff )
                V[j] = 0x00;
            else {
                V[j]++;
                break;
            }
        }
        
        AES256_ECB(Key, V, temp+16*i);
    }
    if ( provided_data != NULL )
        for (int i=0; i<48; i++)
            temp[i] ^= provided_data[i];
    memcpy(Key, temp, 32);
    memcpy(V, temp+32, 16);
}








"#

/-- The headers that /repo/tests/rng.c:10 and /repo/tests/rng.h:13 include. -/
def rngSources : Includes := [incl w!"rng.h" rngHText, incl w!"../src/aes/aes.h" aesHText, incl w!"../config.h" configText]

/-- What the compiler defines: the flags of the Makefile for the AES in C, and `__inline` is `inline` for gcc and clang. -/
def rngFlags : List Macro := ⟨w!"__inline", none, [.id w!"inline"]⟩ :: optAes

/-- What `rngText` parses to (/repo/tests/rng.c:1-99). -/
def rngFile : File := parsed% parseStruct rngFlags rngSources rngText

theorem rng_parse : parseStruct rngFlags rngSources rngText = some rngFile := by kernel_rfl

/-- `AES256_ECB` (/repo/tests/rng.h:20-42). -/
def AES256_ECBFun : Fun := function% rngFile.fn "AES256_ECB"
/-- `randombytes_init` (/repo/tests/rng.c:14-30). -/
def randombytes_initFun : Fun := function% rngFile.fn "randombytes_init"
/-- `randombytes` (/repo/tests/rng.c:32-63). -/
def drbgBytesFun : Fun := function% rngFile.fn "randombytes"
/-- `AES256_CTR_DRBG_Update` (/repo/tests/rng.c:65-90). -/
def drbgUpdateFun : Fun := function% rngFile.fn "AES256_CTR_DRBG_Update"

theorem rng_ecb : rngFile.fn "AES256_ECB" = some AES256_ECBFun := by kernel_rfl
theorem rng_init : rngFile.fn "randombytes_init" = some randombytes_initFun := by kernel_rfl
theorem rng_bytes : rngFile.fn "randombytes" = some drbgBytesFun := by kernel_rfl
theorem rng_update : rngFile.fn "AES256_CTR_DRBG_Update" = some drbgUpdateFun := by kernel_rfl

end Frodo.Src
