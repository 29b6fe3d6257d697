/-!
# Source texts

Copies of files of the crate, made and checked by `tools/text.py`.
-/

namespace OrdinalMap.Text

/-- `ordinal/impls/primitive.rs` -/
def primitiveRs : String := r##"use crate::Ordinal;

impl Ordinal for bool {
    const ORDINAL_SIZE: usize = 2;

    fn ordinal(&self) -> usize {
        *self as usize
    }

    fn from_ordinal(ordinal: usize) -> Option<Self> {
        match ordinal {
            0 => Some(false),
            1 => Some(true),
            _ => None,
        }
    }
}

impl Ordinal for u8 {
    const ORDINAL_SIZE: usize = u8::MAX as usize + 1;

    #[inline]
    fn ordinal(&self) -> usize {
        *self as usize
    }

    #[inline]
    fn from_ordinal(ordinal: usize) -> Option<Self> {
        u8::try_from(ordinal).ok()
    }
}

impl Ordinal for i8 {
    const ORDINAL_SIZE: usize = (i8::MAX as i16 - i8::MIN as i16 + 1) as usize;

    #[inline]
    fn ordinal(&self) -> usize {
        self.abs_diff(i8::MIN) as usize
    }

    #[inline]
    fn from_ordinal(ordinal: usize) -> Option<Self> {
        i8::MIN.checked_add_unsigned(u8::try_from(ordinal).ok()?)
    }
}

impl Ordinal for u16 {
    const ORDINAL_SIZE: usize = u16::MAX as usize + 1;

    #[inline]
    fn ordinal(&self) -> usize {
        *self as usize
    }

    #[inline]
    fn from_ordinal(ordinal: usize) -> Option<Self> {
        u16::try_from(ordinal).ok()
    }
}

impl Ordinal for i16 {
    const ORDINAL_SIZE: usize = (i16::MAX as isize - i16::MIN as isize + 1) as usize;

    #[inline]
    fn ordinal(&self) -> usize {
        self.abs_diff(i16::MIN) as usize
    }

    #[inline]
    fn from_ordinal(ordinal: usize) -> Option<Self> {
        i16::MIN.checked_add_unsigned(u16::try_from(ordinal).ok()?)
    }
}

/// Accessing this type is compile time error on 32-bit platforms.
impl Ordinal for u32 {
    const ORDINAL_SIZE: usize = u32::MAX as usize + 1;

    #[inline]
    fn ordinal(&self) -> usize {
        const { Self::ORDINAL_SIZE };
        *self as usize
    }

    #[inline]
    fn from_ordinal(ordinal: usize) -> Option<Self> {
        u32::try_from(ordinal).ok()
    }
}

impl Ordinal for i32 {
    const ORDINAL_SIZE: usize = u32::ORDINAL_SIZE;

    #[inline]
    fn ordinal(&self) -> usize {
        const { Self::ORDINAL_SIZE };
        self.abs_diff(i32::MIN) as usize
    }

    #[inline]
    fn from_ordinal(ordinal: usize) -> Option<Self> {
        const { Self::ORDINAL_SIZE };
        i32::MIN.checked_add_unsigned(u32::try_from(ordinal).ok()?)
    }
}

#[cfg(test)]
mod tests {
    use crate::tests::util::test_ordinal;
    use crate::Ordinal;

    #[test]
    fn test_bool() {
        test_ordinal::<bool>([false, true]);
    }

    #[test]
    fn test_u8() {
        test_ordinal::<u8>(0..=255);
    }

    #[test]
    fn test_i8() {
        test_ordinal::<i8>(i8::MIN..=i8::MAX);
    }

    #[test]
    fn test_u16() {
        test_ordinal::<u16>(0..=u16::MAX);
    }

    #[test]
    fn test_i16() {
        test_ordinal::<i16>(i16::MIN..=i16::MAX);
    }

    #[test]
    fn test_u32() {
        if cfg!(target_pointer_width = "64") {
            let mut iter = u32::all_values();
            assert_eq!(u32::MAX as usize + 1, iter.len());
            assert_eq!(Some(0), iter.next());
            assert_eq!(Some(1), iter.next());
            assert_eq!(Some(u32::MAX), iter.next_back());
        }
    }

    #[test]
    fn test_i32() {
        if cfg!(target_pointer_width = "64") {
            let mut iter = i32::all_values();
            assert_eq!(u32::MAX as usize + 1, iter.len());
            assert_eq!(Some(i32::MIN), iter.next());
            assert_eq!(Some(i32::MAX), iter.next_back());
        }
    }
}
"##

/-- `ordinal/impls/non_zero.rs` -/
def nonZeroRs : String := r##"use std::num::NonZeroI16;
use std::num::NonZeroI32;
use std::num::NonZeroI64;
use std::num::NonZeroI8;
use std::num::NonZeroIsize;
use std::num::NonZeroU16;
use std::num::NonZeroU32;
use std::num::NonZeroU64;
use std::num::NonZeroU8;
use std::num::NonZeroUsize;

use crate::Ordinal;

impl Ordinal for NonZeroU8 {
    const ORDINAL_SIZE: usize = u8::MAX as usize;

    #[inline]
    fn ordinal(&self) -> usize {
        self.get() as usize - 1
    }

    #[inline]
    fn from_ordinal(ordinal: usize) -> Option<Self> {
        NonZeroU8::try_from(u8::try_from(ordinal.checked_add(1)?).ok()?).ok()
    }
}

impl Ordinal for NonZeroI8 {
    const ORDINAL_SIZE: usize = NonZeroU8::ORDINAL_SIZE;

    #[inline]
    fn ordinal(&self) -> usize {
        if self.get() > 0 {
            127 + self.get() as usize
        } else {
            self.get().abs_diff(i8::MIN) as usize
        }
    }

    #[inline]
    fn from_ordinal(ordinal: usize) -> Option<Self> {
        match ordinal.checked_sub(i8::MAX as usize + 1) {
            None => NonZeroI8::new(
                i8::MIN
                    .checked_add_unsigned(u8::try_from(ordinal).unwrap())
                    .unwrap(),
            ),
            Some(rem) => NonZeroI8::new(i8::try_from(rem + 1).ok()?),
        }
    }
}

impl Ordinal for NonZeroU16 {
    const ORDINAL_SIZE: usize = u16::MAX as usize;

    #[inline]
    fn ordinal(&self) -> usize {
        self.get() as usize - 1
    }

    #[inline]
    fn from_ordinal(ordinal: usize) -> Option<Self> {
        NonZeroU16::try_from(u16::try_from(ordinal.checked_add(1)?).ok()?).ok()
    }
}

impl Ordinal for NonZeroI16 {
    const ORDINAL_SIZE: usize = NonZeroU16::ORDINAL_SIZE;

    #[inline]
    fn ordinal(&self) -> usize {
        if self.get() > 0 {
            32767 + self.get() as usize
        } else {
            self.get().abs_diff(i16::MIN) as usize
        }
    }

    #[inline]
    fn from_ordinal(ordinal: usize) -> Option<Self> {
        match ordinal.checked_sub(i16::MAX as usize + 1) {
            None => NonZeroI16::new(
                i16::MIN
                    .checked_add_unsigned(u16::try_from(ordinal).unwrap())
                    .unwrap(),
            ),
            Some(rem) => NonZeroI16::new(i16::try_from(rem + 1).ok()?),
        }
    }
}

impl Ordinal for NonZeroU32 {
    const ORDINAL_SIZE: usize = u32::MAX as usize;

    #[inline]
    fn ordinal(&self) -> usize {
        self.get() as usize - 1
    }

    #[inline]
    fn from_ordinal(ordinal: usize) -> Option<Self> {
        NonZeroU32::try_from(u32::try_from(ordinal.checked_add(1)?).ok()?).ok()
    }
}

impl Ordinal for NonZeroI32 {
    const ORDINAL_SIZE: usize = NonZeroU32::ORDINAL_SIZE;

    #[inline]
    fn ordinal(&self) -> usize {
        if self.get() > 0 {
            2147483647 + self.get() as usize
        } else {
            self.get().abs_diff(i32::MIN) as usize
        }
    }

    #[inline]
    fn from_ordinal(ordinal: usize) -> Option<Self> {
        match ordinal.checked_sub(i32::MAX as usize + 1) {
            None => NonZeroI32::new(
                i32::MIN
                    .checked_add_unsigned(u32::try_from(ordinal).unwrap())
                    .unwrap(),
            ),
            Some(rem) => NonZeroI32::new(i32::try_from(rem + 1).ok()?),
        }
    }
}

impl Ordinal for NonZeroUsize {
    const ORDINAL_SIZE: usize = usize::MAX;

    #[inline]
    fn ordinal(&self) -> usize {
        self.get() - 1
    }

    #[inline]
    fn from_ordinal(ordinal: usize) -> Option<Self> {
        NonZeroUsize::new(ordinal.checked_add(1)?)
    }
}

impl Ordinal for NonZeroIsize {
    const ORDINAL_SIZE: usize = NonZeroUsize::ORDINAL_SIZE;

    #[inline]
    fn ordinal(&self) -> usize {
        if self.get() > 0 {
            usize::MAX / 2 + self.get() as usize
        } else {
            self.get().abs_diff(isize::MIN)
        }
    }

    #[inline]
    fn from_ordinal(ordinal: usize) -> Option<Self> {
        match ordinal.checked_sub(isize::MAX as usize + 1) {
            None => NonZeroIsize::new(isize::MIN.checked_add_unsigned(ordinal).unwrap()),
            Some(rem) => NonZeroIsize::new(isize::try_from(rem + 1).ok()?),
        }
    }
}

/// It is compile-time error to use this impl on 32-bit platforms.
impl Ordinal for NonZeroU64 {
    const ORDINAL_SIZE: usize = if u64::MAX == usize::MAX as u64 {
        usize::MAX
    } else {
        panic!("NonZeroU64::ORDINAL_SIZE is too large for 32-bit platforms")
    };

    fn ordinal(&self) -> usize {
        const { Self::ORDINAL_SIZE };
        NonZeroUsize::new(self.get() as usize).unwrap().ordinal()
    }

    fn from_ordinal(ordinal: usize) -> Option<Self> {
        const { Self::ORDINAL_SIZE };
        Some(NonZeroU64::new(NonZeroUsize::from_ordinal(ordinal)?.get() as u64).unwrap())
    }
}

impl Ordinal for NonZeroI64 {
    const ORDINAL_SIZE: usize = NonZeroU64::ORDINAL_SIZE;

    fn ordinal(&self) -> usize {
        const { Self::ORDINAL_SIZE };
        NonZeroIsize::new(self.get() as isize).unwrap().ordinal()
    }

    fn from_ordinal(ordinal: usize) -> Option<Self> {
        const { Self::ORDINAL_SIZE };
        Some(NonZeroI64::new(NonZeroIsize::from_ordinal(ordinal)?.get() as i64).unwrap())
    }
}

#[cfg(test)]
mod tests {
    use std::num::NonZeroI16;
    use std::num::NonZeroI32;
    use std::num::NonZeroI64;
    use std::num::NonZeroI8;
    use std::num::NonZeroIsize;
    use std::num::NonZeroU16;
    use std::num::NonZeroU64;
    use std::num::NonZeroU8;
    use std::num::NonZeroUsize;

    use crate::tests::util::test_ordinal;
    use crate::tests::util::test_ordinal_some;
    use crate::tests::util::test_ordinal_value;

    #[test]
    fn test_non_zero_u8() {
        test_ordinal((1..=u8::MAX).map(|i| NonZeroU8::new(i).unwrap()));
    }

    #[test]
    fn test_non_zero_i8() {
        test_ordinal((i8::MIN..=i8::MAX).filter_map(NonZeroI8::new));
    }

    #[test]
    fn test_non_zero_u16() {
        test_ordinal((1..=u16::MAX).map(|i| NonZeroU16::new(i).unwrap()));
    }

    #[test]
    fn test_non_zero_i16() {
        test_ordinal((i16::MIN..=i16::MAX).filter_map(NonZeroI16::new));
    }

    #[test]
    fn test_non_zero_u32() {
        test_ordinal_some::<u32>();
    }

    #[test]
    fn test_non_zero_i32() {
        test_ordinal_some::<i32>();
        test_ordinal_value(NonZeroI32::new(-1));
        test_ordinal_value(NonZeroI32::new(1));
    }

    #[test]
    fn test_non_zero_u64() {
        if cfg!(target_pointer_width = "64") {
            test_ordinal_some::<NonZeroU64>();
        }
    }

    #[test]
    fn test_non_zero_i64() {
        if cfg!(target_pointer_width = "64") {
            test_ordinal_some::<NonZeroI64>();
            test_ordinal_value(NonZeroI64::new(-1));
            test_ordinal_value(NonZeroI64::new(1));
        }
    }

    #[test]
    fn test_non_zero_usize() {
        test_ordinal_some::<NonZeroUsize>();
    }

    #[test]
    fn test_non_zero_isize() {
        test_ordinal_some::<NonZeroIsize>();
        test_ordinal_value(NonZeroIsize::new(-1));
        test_ordinal_value(NonZeroIsize::new(1));
    }
}
"##

/-- `ordinal/impls/char.rs` -/
def charRs : String := r##"use crate::Ordinal;

const SURROGATE_START: u32 = 0xd800;

impl Ordinal for char {
    const ORDINAL_SIZE: usize = char::MAX as usize + 1 - 0x800;

    fn ordinal(&self) -> usize {
        let c = *self as u32;
        if c < SURROGATE_START {
            c as usize
        } else {
            c as usize - 0x800
        }
    }

    fn from_ordinal(ordinal: usize) -> Option<Self> {
        if ordinal < SURROGATE_START as usize {
            char::from_u32(ordinal as u32)
        } else {
            char::from_u32((ordinal as u32).checked_add(0x800)?)
        }
    }
}

#[cfg(test)]
mod tests {
    use crate::tests::util::test_ordinal;

    #[test]
    fn test_char() {
        test_ordinal((0..=(char::MAX as u32)).filter_map(char::from_u32))
    }
}
"##

/-- `ordinal/impls/ordering.rs` -/
def orderingRs : String := r##"use std::cmp::Ordering;

use crate::Ordinal;

impl Ordinal for Ordering {
    const ORDINAL_SIZE: usize = 3;

    fn ordinal(&self) -> usize {
        match self {
            Ordering::Less => 0,
            Ordering::Equal => 1,
            Ordering::Greater => 2,
        }
    }

    fn from_ordinal(ordinal: usize) -> Option<Self> {
        match ordinal {
            0 => Some(Ordering::Less),
            1 => Some(Ordering::Equal),
            2 => Some(Ordering::Greater),
            _ => None,
        }
    }
}

#[cfg(test)]
mod tests {
    use std::cmp::Ordering;

    use crate::tests::util::test_ordinal;

    #[test]
    fn test_ordering() {
        test_ordinal([Ordering::Less, Ordering::Equal, Ordering::Greater]);
    }
}
"##

/-- `ordinal/impls/std.rs` -/
def stdRs : String := r##"use std::convert::Infallible;

use crate::Ordinal;

impl<A: Ordinal> Ordinal for Option<A> {
    const ORDINAL_SIZE: usize = A::ORDINAL_SIZE + 1;

    fn ordinal(&self) -> usize {
        match self {
            None => 0,
            Some(a) => a.ordinal() + 1,
        }
    }

    fn from_ordinal(ordinal: usize) -> Option<Self> {
        if ordinal == 0 {
            Some(None)
        } else {
            A::from_ordinal(ordinal - 1).map(Some)
        }
    }
}

impl<A: Ordinal, B: Ordinal> Ordinal for Result<A, B> {
    const ORDINAL_SIZE: usize = A::ORDINAL_SIZE + B::ORDINAL_SIZE;

    fn ordinal(&self) -> usize {
        match self {
            Ok(a) => a.ordinal(),
            Err(b) => A::ORDINAL_SIZE + b.ordinal(),
        }
    }

    fn from_ordinal(ordinal: usize) -> Option<Self> {
        if ordinal < A::ORDINAL_SIZE {
            Some(Ok(A::from_ordinal(ordinal).unwrap()))
        } else {
            B::from_ordinal(ordinal - A::ORDINAL_SIZE).map(Err)
        }
    }
}

impl Ordinal for Infallible {
    const ORDINAL_SIZE: usize = 0;

    fn ordinal(&self) -> usize {
        match *self {}
    }

    fn from_ordinal(_: usize) -> Option<Self> {
        None
    }
}

#[cfg(test)]
mod tests {
    use std::convert::Infallible;

    use crate::tests::util::test_ordinal;

    #[test]
    fn test_option() {
        test_ordinal([None, Some(false), Some(true)]);
    }

    #[test]
    fn test_result() {
        test_ordinal([
            Ok(false),
            Ok(true),
            Err(None),
            Err(Some(false)),
            Err(Some(true)),
        ]);
    }

    #[test]
    fn test_infallible() {
        test_ordinal::<Infallible>([]);
    }
}
"##

/-- `ordinal/impls/either.rs` -/
def eitherRs : String := r##"#![cfg(feature = "either")]

use either::Either;

use crate::Ordinal;

impl<A: Ordinal, B: Ordinal> Ordinal for Either<A, B> {
    const ORDINAL_SIZE: usize = Result::<A, B>::ORDINAL_SIZE;

    fn ordinal(&self) -> usize {
        match self {
            Either::Left(a) => a.ordinal(),
            Either::Right(b) => A::ORDINAL_SIZE + b.ordinal(),
        }
    }

    fn from_ordinal(ordinal: usize) -> Option<Self> {
        if ordinal < A::ORDINAL_SIZE {
            Some(Either::Left(A::from_ordinal(ordinal).unwrap()))
        } else {
            B::from_ordinal(ordinal - A::ORDINAL_SIZE).map(Either::Right)
        }
    }
}

#[cfg(test)]
mod tests {
    use either::Either;

    use crate::tests::util::test_ordinal;

    #[test]
    fn test_either() {
        test_ordinal([Either::Left(false), Either::Left(true), Either::Right(())]);
    }
}
"##

/-- `ordinal/impls/boxed.rs` -/
def boxedRs : String := r##"use crate::Ordinal;

impl<T: Ordinal> Ordinal for Box<T> {
    const ORDINAL_SIZE: usize = T::ORDINAL_SIZE;

    fn ordinal(&self) -> usize {
        (**self).ordinal()
    }

    fn from_ordinal(ordinal: usize) -> Option<Self> {
        Some(Box::new(T::from_ordinal(ordinal)?))
    }
}

#[cfg(test)]
mod tests {
    use crate::tests::util::test_ordinal;

    #[test]
    fn test_box() {
        test_ordinal([Box::new(false), Box::new(true)])
    }
}
"##

/-- `ordinal/impls/array.rs` -/
def arrayRs : String := r##"use crate::array_builder::ArrayBuilder;
use crate::Ordinal;

impl<T: Ordinal, const N: usize> Ordinal for [T; N] {
    const ORDINAL_SIZE: usize = {
        let mut s = 1usize;
        let mut i = 0;
        while i < N {
            s = s.checked_mul(T::ORDINAL_SIZE).unwrap();
            i += 1;
        }
        s
    };

    fn ordinal(&self) -> usize {
        let mut r = 0usize;
        for v in self {
            r = r.checked_mul(T::ORDINAL_SIZE).unwrap();
            r += v.ordinal();
        }
        r
    }

    fn from_ordinal(ordinal: usize) -> Option<Self> {
        let mut n = ordinal;
        let mut array = ArrayBuilder::new();
        for _ in 0..N {
            let Some(i) = n.checked_rem(T::ORDINAL_SIZE) else {
                return None;
            };
            array.push(T::from_ordinal(i).unwrap());
            n /= T::ORDINAL_SIZE;
        }
        if n != 0 {
            None
        } else {
            let mut array = array.finish();
            array.reverse();
            Some(array)
        }
    }
}

#[cfg(test)]
mod tests {
    use std::convert::Infallible;

    use crate::tests::util::test_ordinal;

    #[test]
    fn test_array_of_empty() {
        test_ordinal::<[Infallible; 0]>([[]]);
        test_ordinal::<[Infallible; 1]>([]);
        test_ordinal::<[Infallible; 2]>([]);
    }

    #[test]
    fn test_array_0() {
        test_ordinal::<[u16; 0]>([[]]);
    }

    #[test]
    fn test_array_1() {
        test_ordinal([[false], [true]]);
    }

    #[test]
    fn test_array_2() {
        test_ordinal([[false, false], [false, true], [true, false], [true, true]]);
        // Should be compatible with ordinal for tuple.
        test_ordinal([(false, false), (false, true), (true, false), (true, true)]);
    }
}
"##

end OrdinalMap.Text
