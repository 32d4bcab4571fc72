import Verif.C.DoLoop
import Verif.Text.Generic

/-! # The text of /repo/src/random/random.c

Carriage returns at the ends of lines are left out, as Lean reads its sources without them. -/

namespace Frodo.Src

set_option maxRecDepth 20000 in
/-- /repo/src/random/random.h:1-9, verbatim. -/
def randomHText : List (List Char) := c_text r#"#ifndef __RANDOM_H__
#define __RANDOM_H__


// Generate random bytes and output the result to random_array
int randombytes(unsigned char* random_array, unsigned long long nbytes);


#endif"#

set_option maxRecDepth 20000 in
/-- /repo/src/random/random.c:1-61, verbatim. -/
def randomText : List (List Char) := c_text r#"/********************************************************************************************
* Hardware-based random number generation function
*
* It uses /dev/urandom in Unix-like OSs and CNG's BCryptGenRandom function in Windows
*********************************************************************************************/ 

#include "random.h"
#include <stdlib.h>
#if defined(WINDOWS)
    #include <windows.h>
    #include <bcrypt.h>
#elif defined(NIX)
    #include <unistd.h>
    #include <fcntl.h>
    static int lock = -1;
#endif

#define passed 0 
#define failed 1


static __inline void delay(unsigned int count)
{
    while (count--) {}
}


int randombytes(unsigned char* random_array, unsigned long long nbytes)
{ // Generation of "nbytes" of random values
    
#if defined(WINDOWS)   
    if (!BCRYPT_SUCCESS(BCryptGenRandom(NULL, random_array, (unsigned long)nbytes, BCRYPT_USE_SYSTEM_PREFERRED_RNG))) {
        return failed;
    }

#elif defined(NIX)
    int r, n = (int)nbytes, count = 0;
    
    if (lock == -1) {
        do {
            lock = open("/dev/urandom", O_RDONLY);
            if (lock == -1) {
                delay(0xFFFFF);
            }
        } while (lock == -1);
    }

    while (n > 0) {
        do {
            r = read(lock, random_array+count, n);
            if (r == -1) {
                delay(0xFFFF);
            }
        } while (r == -1);
        count += r;
        n -= r;
    }
#endif

    return passed;
}"#

/-- The headers that /repo/src/random/random.c:7 includes. -/
def randomSources : Includes := [incl w!"random.h" randomHText]

/-- What the compiler and the system define: the Makefile sets `NIX` (/repo/Makefile:69), `__inline` is `inline` for gcc and
clang, and `O_RDONLY` is 0 (`fcntl.h`, included in /repo/src/random/random.c:14). -/
def randomFlags : List Macro :=
  ⟨w!"__inline", none, [.id w!"inline"]⟩ :: ⟨w!"O_RDONLY", none, [.num 0 false false]⟩ :: baseFlags

/-- What `randomText` parses to (/repo/src/random/random.c:1-61). -/
def randomFile : File := parsed% parseDo randomFlags randomSources randomText

theorem random_parse : parseDo randomFlags randomSources randomText = some randomFile := by kernel_rfl

/-- `delay` (/repo/src/random/random.c:22-25). -/
def delayFun : Fun := function% randomFile.fn "delay"
/-- `randombytes` (/repo/src/random/random.c:28-61). -/
def randombytesFun : Fun := function% randomFile.fn "randombytes"

theorem random_delay : randomFile.fn "delay" = some delayFun := by kernel_rfl
theorem random_randombytes : randomFile.fn "randombytes" = some randombytesFun := by kernel_rfl

end Frodo.Src
