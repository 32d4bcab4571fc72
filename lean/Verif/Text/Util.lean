import Verif.C.Parse

/-! # The text of /repo/src/util.c -/

namespace Frodo.Src

/-- /repo/src/util.c:1-143, verbatim. -/
def utilText : List (List Char) := c_text r#"/********************************************************************************************
* FrodoKEM: Learning with Errors Key Encapsulation
*
* Abstract: additional functions for FrodoKEM
*********************************************************************************************/

#include <string.h>
#include "frodo_macrify.h"

#define min(x, y) (((x) < (y)) ? (x) : (y))


void frodo_pack(unsigned char *out, const size_t outlen, const uint16_t *in, const size_t inlen, const unsigned char lsb) 
{ // Pack the input uint16 vector into a char output vector, copying lsb bits from each input element. 
  // If inlen * lsb / 8 > outlen, only outlen * 8 bits are copied.
    memset(out, 0, outlen);

    size_t i = 0;            // whole bytes already filled in
    size_t j = 0;            // whole uint16_t already copied
    uint16_t w = 0;          // the leftover, not yet copied
    unsigned char bits = 0;  // the number of lsb in w

    while (i < outlen && (j < inlen || ((j == inlen) && (bits > 0)))) {
        /*
        in: |        |        |********|********|
                              ^
                              j
        w : |   ****|
                ^
               bits
        out:|**|**|**|**|**|**|**|**|* |
                                    ^^
                                    ib
        */
        unsigned char b = 0;  // bits in out[i] already filled in
        while (b < 8) {
            int nbits = min(8 - b, bits);
            uint16_t mask = (1 << nbits) - 1;
            unsigned char t = (w >> (bits - nbits)) & mask;  // the bits to copy from w to out
            out[i] = out[i] + (t << (8 - b - nbits));
            b += nbits;
            bits -= nbits;
            w &= ~(mask << bits);  // not strictly necessary; mostly for debugging

            if (bits == 0) {
                if (j < inlen) {
                    w = in[j];
                    bits = lsb;
                    j++;
                } else {
                    break;  // the input vector is exhausted
                }
            }
        }
        if (b == 8) {  // out[i] is filled in
            i++;
        }
    }
}


void frodo_unpack(uint16_t *out, const size_t outlen, const unsigned char *in, const size_t inlen, const unsigned char lsb) 
{ // Unpack the input char vector into a uint16_t output vector, copying lsb bits
  // for each output element from input. outlen must be at least ceil(inlen * 8 / lsb).
    memset(out, 0, outlen * sizeof(uint16_t));

    size_t i = 0;            // whole uint16_t already filled in
    size_t j = 0;            // whole bytes already copied
    unsigned char w = 0;     // the leftover, not yet copied
    unsigned char bits = 0;  // the number of lsb bits of w

    while (i < outlen && (j < inlen || ((j == inlen) && (bits > 0)))) {
        /*
        in: |  |  |  |  |  |  |**|**|...
                              ^
                              j
        w : | *|
              ^
              bits
        out:|   *****|   *****|   ***  |        |...
                              ^   ^
                              i   b
        */
        unsigned char b = 0;  // bits in out[i] already filled in
        while (b < lsb) {
            int nbits = min(lsb - b, bits);
            uint16_t mask = (1 << nbits) - 1;
            unsigned char t = (w >> (bits - nbits)) & mask;  // the bits to copy from w to out
            out[i] = out[i] + (t << (lsb - b - nbits));
            b += nbits;
            bits -= nbits;
            w &= ~(mask << bits);  // not strictly necessary; mostly for debugging

            if (bits == 0) {
                if (j < inlen) {
                    w = in[j];
                    bits = 8;
                    j++;
                } else {
                    break;  // the input vector is exhausted
                }
            }
        }
        if (b == lsb) {  // out[i] is filled in
            i++;
        }
    }
}


int8_t ct_verify(const uint16_t *a, const uint16_t *b, size_t len) 
{ // Compare two arrays in constant time.
  // Returns 0 if the byte arrays are equal, -1 otherwise.
    uint16_t r = 0;

    for (size_t i = 0; i < len; i++) {
        r |= a[i] ^ b[i];
    }

    r = (-(int16_t)(r >> 1) | -(int16_t)(r & 1)) >> (8*sizeof(uint16_t)-1);
    return (int8_t)r;
}


void ct_select(uint8_t *r, const uint8_t *a, const uint8_t *b, size_t len, int8_t selector) 
{ // Select one of the two input arrays to be moved to r
  // If (selector == 0) then load r with a, else if (selector == -1) load r with b

    for (size_t i = 0; i < len; i++) {
        r[i] = (~selector & a[i]) | (selector & b[i]);
    }
}


void clear_bytes(uint8_t *mem, size_t n)
{ // Clear 8-bit bytes from memory. "n" indicates the number of bytes to be zeroed.
  // This function uses the volatile type qualifier to inform the compiler not to optimize out the memory clearing.
    volatile uint8_t *v = mem; 

    for (size_t i = 0; i < n; i++) {
        v[i] = 0;
    }
}
"#

/-- What `utilText` parses to (/repo/src/util.c:1-143). -/
def utilFile : File := parsed% parseText [] [] utilText

theorem util_parse : parseText [] [] utilText = some utilFile := by kernel_rfl

/-- `frodo_pack` (/repo/src/util.c:13-59). -/
def packFun : Fun := function% utilFile.fn "frodo_pack"
/-- `frodo_unpack` (/repo/src/util.c:62-108). -/
def unpackFun : Fun := function% utilFile.fn "frodo_unpack"
/-- `ct_verify` (/repo/src/util.c:111-122). -/
def verifyFun : Fun := function% utilFile.fn "ct_verify"
/-- `ct_select` (/repo/src/util.c:125-132). -/
def selectFun : Fun := function% utilFile.fn "ct_select"
/-- `clear_bytes` (/repo/src/util.c:135-143). -/
def clearFun : Fun := function% utilFile.fn "clear_bytes"

theorem util_pack : utilFile.fn "frodo_pack" = some packFun := by kernel_rfl
theorem util_unpack : utilFile.fn "frodo_unpack" = some unpackFun := by kernel_rfl
theorem util_verify : utilFile.fn "ct_verify" = some verifyFun := by kernel_rfl
theorem util_select : utilFile.fn "ct_select" = some selectFun := by kernel_rfl
theorem util_clear : utilFile.fn "clear_bytes" = some clearFun := by kernel_rfl

end Frodo.Src
