/-!
# Source texts

Copies of files of the crate, made and checked by `tools/text.py`.
-/

namespace OrdinalMap.Text

/-- `ordinal/traits.rs` -/
def ordinalTraitsRs : String := r##"/// Two-way map from a type to `usize` range from `0..ORDINAL_SIZE`.
///
/// Two way ordinal mapping means:
/// - the type has `ORDINAL_SIZE` possible values
/// - each value has a unique ordinal number in the range `0..ORDINAL_SIZE`
/// - each ordinal number corresponds to a unique value
///
/// This type is implemented for
/// - small integer types
/// - tuples
/// - some builtin types like [`Option`] and [`Result`]
/// - and it can be derived with the `#[derive(Ordinal)]` attribute for structs and enums
///
/// # Relation to `Ord` and `PartialOrd`
///
/// Implementations provided in this crate and generated with `#[derive(Ordinal)]`
/// are compatible with `Ord` and `PartialOrd`, meaning `a < b <=> a.ordinal() < b.ordinal()`
/// **with the exception** of derive on enums with explicit discriminants
/// (derive ignores them and assigns ordinal numbers in order of declaration).
///
/// This is not enforced by the trait itself, but it is a good practice to follow.
///
/// # Derive
///
/// `#[derive(Ordinal)]` works for arbitrary structs and enums.
/// Generated implementation is compatible with `#[derive(PartialOrd)]`.
///
/// ```
/// use ordinal_map::Ordinal;
/// #[derive(Ordinal)]
/// enum Color {
///     Red,
///     Cyan,
///     Blue,
/// }
///
/// #[derive(Ordinal)]
/// struct Bright(bool);
///
/// #[derive(Ordinal)]
/// enum MaybeColor {
///     Default,
///     Colored(Color, Bright),
///     Invisible,
/// }
///
/// assert_eq!(0, MaybeColor::Default.ordinal());
/// assert_eq!(1, MaybeColor::Colored(Color::Red, Bright(false)).ordinal());
/// assert_eq!(2, MaybeColor::Colored(Color::Red, Bright(true)).ordinal());
/// assert_eq!(3, MaybeColor::Colored(Color::Cyan, Bright(false)).ordinal());
/// assert_eq!(4, MaybeColor::Colored(Color::Cyan, Bright(true)).ordinal());
/// ```
///
/// # See also
///
/// - [`Iter`](crate::OrdinalValues) to iterate over all possible values.
/// - [`map`](crate::map) module for constant time lookup maps.
/// - [`set`](crate::set) module for constant time lookup sets.
pub trait Ordinal: Sized {
    /// Number of possible values.
    ///
    /// It is compile-time error if the number of possible values is greater than `usize::MAX`.
    const ORDINAL_SIZE: usize;
    /// Index of the ordinal.
    ///
    /// # Example
    ///
    /// ```
    /// use std::num::NonZeroI16;
    ///
    /// use ordinal_map::Ordinal;
    /// assert_eq!(0, None::<u16>.ordinal());
    /// assert_eq!(1, Some::<u16>(0).ordinal());
    /// assert_eq!(2, Some::<u16>(1).ordinal());
    /// ```
    fn ordinal(&self) -> usize;
    /// Returns the ordinal from the index.
    ///
    /// # Example
    ///
    /// ```
    /// use ordinal_map::Ordinal;
    ///
    /// assert_eq!(i16::MIN, i16::from_ordinal(0).unwrap());
    /// assert_eq!(i16::MIN + 1, i16::from_ordinal(1).unwrap());
    /// ```
    fn from_ordinal(ordinal: usize) -> Option<Self>;

    /// Iterate over all possible values.
    ///
    /// Values are returned in order of their ordinal numbers.
    ///
    /// # Example
    ///
    /// ```
    /// use ordinal_map::Ordinal;
    /// let mut iter = i16::all_values();
    /// assert_eq!(Some(i16::MIN), iter.next());
    /// assert_eq!(Some(i16::MAX), iter.next_back());
    /// ```
    fn all_values() -> crate::OrdinalValues<Self> {
        crate::OrdinalValues::new()
    }
}
"##

/-- `values.rs` -/
def valuesRs : String := r##"use std::fmt;
use std::fmt::Debug;
use std::fmt::Formatter;
use std::marker::PhantomData;
use std::ops::Range;

use crate::Ordinal;

/// Iterator over [`Ordinal`] values.
///
/// This iterator is created by [`Ordinal::all_values`](Ordinal::all_values).
///
/// # Example
///
/// ```
/// use ordinal_map::Ordinal;
///
/// assert_eq!(vec![false, true], bool::all_values().collect::<Vec<_>>());
/// ```
pub struct OrdinalValues<T> {
    range: Range<usize>,
    _phantom: PhantomData<T>,
}

impl<T: Ordinal> OrdinalValues<T> {
    /// Create a new iterator.
    #[inline]
    pub(crate) fn new() -> Self {
        OrdinalValues {
            range: 0..T::ORDINAL_SIZE,
            _phantom: PhantomData,
        }
    }
}

impl<T: Ordinal> Iterator for OrdinalValues<T> {
    type Item = T;

    #[inline]
    fn next(&mut self) -> Option<Self::Item> {
        let next = self.range.next()?;
        Some(T::from_ordinal(next).unwrap())
    }

    #[inline]
    fn size_hint(&self) -> (usize, Option<usize>) {
        self.range.size_hint()
    }

    #[inline]
    fn count(self) -> usize
    where
        Self: Sized,
    {
        self.range.count()
    }

    #[inline]
    fn last(mut self) -> Option<Self::Item>
    where
        Self: Sized,
    {
        self.next_back()
    }
}

impl<T: Ordinal> ExactSizeIterator for OrdinalValues<T> {
    #[inline]
    fn len(&self) -> usize {
        self.range.len()
    }
}

impl<T: Ordinal> DoubleEndedIterator for OrdinalValues<T> {
    #[inline]
    fn next_back(&mut self) -> Option<Self::Item> {
        let next = self.range.next_back()?;
        Some(T::from_ordinal(next).unwrap())
    }
}

impl<T> Clone for OrdinalValues<T> {
    #[inline]
    fn clone(&self) -> Self {
        OrdinalValues {
            range: self.range.clone(),
            _phantom: PhantomData,
        }
    }
}

impl<T: Ordinal + Debug> Debug for OrdinalValues<T> {
    fn fmt(&self, f: &mut Formatter<'_>) -> fmt::Result {
        let mut iter = self.clone();
        let Some(first) = iter.next() else {
            return write!(f, "[]");
        };
        if self.range.end == T::ORDINAL_SIZE {
            write!(f, "[{:?}..]", first)
        } else {
            let Some(last) = iter.next_back() else {
                return write!(f, "[{:?}]", first);
            };
            write!(f, "[{:?}..={:?}]", first, last)
        }
    }
}

#[cfg(test)]
mod tests {
    use crate::Ordinal;

    #[test]
    fn test_iter_debug() {
        let mut iter = u8::all_values();
        assert_eq!("[0..]", format!("{:?}", iter));
        iter.next().unwrap();
        assert_eq!("[1..]", format!("{:?}", iter));
        iter.next_back().unwrap();
        assert_eq!("[1..=254]", format!("{:?}", iter));
        assert_eq!(254, iter.len());
        iter.nth(252).unwrap();
        assert_eq!("[254]", format!("{:?}", iter));
    }

    #[test]
    fn test_last() {
        let iter = u8::all_values();
        assert_eq!(Some(255), iter.last());
    }
}
"##

/-- `set/array.rs` -/
def setArrayRs : String := r##"use std::fmt;
use std::fmt::Debug;
use std::marker::PhantomData;

use crate::set::set_mut::OrdinalSetMut;
use crate::set::set_ref::OrdinalSetRef;
use crate::Ordinal;

/// Compute the size of `S` parameter for [`OrdinalArraySet`](crate::set::OrdinalArraySet).
/// This is simply `(T::ORDINAL_SIZE + 63) / 64`.
pub const fn ordinal_array_set_s<T: Ordinal>() -> usize {
    T::ORDINAL_SIZE.div_ceil(u64::BITS as usize)
}

/// Set of ordinals implemented as an array of words.
///
/// # Size parameter
///
/// Parameter `S` must be explicitly specified as
/// [`ordinal_array_set_s::<T>()`](ordinal_array_set_s)
/// due to limitations of const generics in stable Rust.
///
/// If this is not convenient, consider using:
/// - [`OrdinalSet64`](crate::set::OrdinalSet64) for types where `T::ORDINAL_SIZE <= 64`.
/// - [`OrdinalSet`](crate::set::OrdinalSet) which allocates storage dynamically.
///
/// # Example
///
/// ```
/// use ordinal_map::set::ordinal_array_set_s;
/// use ordinal_map::set::OrdinalArraySet;
/// let mut set: OrdinalArraySet<u8, { ordinal_array_set_s::<u8>() }> = OrdinalArraySet::new();
///
/// set.insert(17);
/// ```
pub struct OrdinalArraySet<T, const S: usize> {
    words: [u64; S],
    _phantom: PhantomData<T>,
}

impl<T: Ordinal, const S: usize> OrdinalArraySet<T, S> {
    const ASSERT: () = assert!(S == ordinal_array_set_s::<T>());

    /// Create a new empty set.
    #[inline]
    pub fn new() -> Self {
        const { Self::ASSERT };
        OrdinalArraySet::default()
    }

    #[inline]
    fn as_ref(&self) -> OrdinalSetRef<'_, T> {
        const { Self::ASSERT };
        OrdinalSetRef::new(&self.words)
    }

    #[inline]
    fn as_mut(&mut self) -> OrdinalSetMut<'_, T> {
        const { Self::ASSERT };
        OrdinalSetMut::new(&mut self.words)
    }

    /// Check if the set contains an ordinal.
    #[inline]
    pub fn contains(&self, ordinal: &T) -> bool {
        self.as_ref().contains(ordinal)
    }

    /// Insert an ordinal into the set, returning `true` if the ordinal was not already present.
    #[inline]
    pub fn insert(&mut self, ordinal: T) -> bool {
        self.as_mut().insert(ordinal)
    }
}

impl<T, const S: usize> Default for OrdinalArraySet<T, S> {
    #[inline]
    fn default() -> Self {
        OrdinalArraySet {
            words: [0; S],
            _phantom: PhantomData,
        }
    }
}

impl<T: Ordinal, const S: usize> FromIterator<T> for OrdinalArraySet<T, S> {
    fn from_iter<I: IntoIterator<Item = T>>(iter: I) -> Self {
        let mut set = OrdinalArraySet::new();
        for value in iter {
            set.insert(value);
        }
        set
    }
}

impl<T, const S: usize> Clone for OrdinalArraySet<T, S> {
    fn clone(&self) -> Self {
        OrdinalArraySet {
            words: self.words,
            _phantom: PhantomData,
        }
    }
}

impl<T: Ordinal + Debug, const S: usize> Debug for OrdinalArraySet<T, S> {
    fn fmt(&self, f: &mut fmt::Formatter<'_>) -> fmt::Result {
        Debug::fmt(&self.as_ref(), f)
    }
}

#[cfg(test)]
mod tests {
    use std::collections::HashSet;

    use crate::set::array::ordinal_array_set_s;
    use crate::set::OrdinalArraySet;

    #[quickcheck]
    fn qc_insert(values: Vec<i8>, check: Vec<i8>) {
        let mut control: HashSet<i8> = HashSet::new();
        let mut set: OrdinalArraySet<i8, { ordinal_array_set_s::<i8>() }> = OrdinalArraySet::new();

        for &value in &values {
            assert_eq!(control.insert(value), set.insert(value));
        }

        for &value in &check {
            assert_eq!(control.contains(&value), set.contains(&value));
        }
    }
}
"##

/-- `set/iter.rs` -/
def setIterRs : String := r##"use std::fmt::Debug;

use crate::set::set_ref::OrdinalSetRef;
use crate::Ordinal;

/// Iterator over elements of [`OrdinalSet`](crate::set::OrdinalSet)
/// or [`OrdinalArraySet`](crate::set::OrdinalArraySet).
pub struct Iter<'a, T> {
    iter: crate::OrdinalValues<T>,
    set: OrdinalSetRef<'a, T>,
}

impl<'a, T: Ordinal> Iter<'a, T> {
    #[inline]
    pub(crate) fn new(set: OrdinalSetRef<'a, T>) -> Self {
        Iter {
            iter: T::all_values(),
            set,
        }
    }
}

impl<'a, T: Ordinal> Iterator for Iter<'a, T> {
    type Item = T;

    #[inline]
    fn next(&mut self) -> Option<Self::Item> {
        loop {
            let next = self.iter.next()?;
            if self.set.contains(&next) {
                return Some(next);
            }
        }
    }

    #[inline]
    fn size_hint(&self) -> (usize, Option<usize>) {
        (0, Some(self.iter.len()))
    }
}

impl<'a, T: Ordinal> DoubleEndedIterator for Iter<'a, T> {
    #[inline]
    fn next_back(&mut self) -> Option<Self::Item> {
        loop {
            let next = self.iter.next_back()?;
            if self.set.contains(&next) {
                return Some(next);
            }
        }
    }
}

impl<'a, T> Clone for Iter<'a, T> {
    #[inline]
    fn clone(&self) -> Self {
        Iter {
            iter: self.iter.clone(),
            set: self.set.clone(),
        }
    }
}

impl<'a, T: Ordinal + Debug> Debug for Iter<'a, T> {
    fn fmt(&self, f: &mut std::fmt::Formatter<'_>) -> std::fmt::Result {
        f.debug_list().entries(self.clone()).finish()
    }
}
"##

/-- `set/set_ref.rs` -/
def setRefRs : String := r##"use std::fmt::Debug;
use std::fmt::Formatter;
use std::marker::PhantomData;

use crate::set::array::ordinal_array_set_s;
use crate::set::Iter;
use crate::Ordinal;

pub(crate) struct OrdinalSetRef<'a, T> {
    words: &'a [u64],
    _phantom: PhantomData<T>,
}

impl<'a, T: Ordinal> OrdinalSetRef<'a, T> {
    #[inline]
    pub(crate) fn iter(self) -> Iter<'a, T> {
        Iter::new(self)
    }

    #[inline]
    pub(crate) fn new(words: &'a [u64]) -> Self {
        debug_assert!(words.len() == 0 || words.len() == ordinal_array_set_s::<T>());
        OrdinalSetRef {
            words,
            _phantom: PhantomData,
        }
    }

    #[inline]
    pub(crate) fn contains(&self, ordinal: &T) -> bool {
        let Some(word) = self.words.get(ordinal.ordinal() / u64::BITS as usize) else {
            return false;
        };
        word & (1 << (ordinal.ordinal() % u64::BITS as usize)) != 0
    }
}

impl<'a, T> Clone for OrdinalSetRef<'a, T> {
    fn clone(&self) -> Self {
        OrdinalSetRef {
            words: self.words,
            _phantom: PhantomData,
        }
    }
}

impl<'a, T: Ordinal + Debug> Debug for OrdinalSetRef<'a, T> {
    fn fmt(&self, f: &mut Formatter<'_>) -> std::fmt::Result {
        f.debug_set().entries(self.clone().iter()).finish()
    }
}
"##

/-- `set/set_mut.rs` -/
def setMutRs : String := r##"use std::marker::PhantomData;

use crate::set::array::ordinal_array_set_s;
use crate::set::set_ref::OrdinalSetRef;
use crate::Ordinal;

pub(crate) struct OrdinalSetMut<'a, T> {
    words: &'a mut [u64],
    _phantom: PhantomData<T>,
}

impl<'a, T: Ordinal> OrdinalSetMut<'a, T> {
    #[inline]
    pub(crate) fn new(words: &'a mut [u64]) -> Self {
        debug_assert!(words.len() == ordinal_array_set_s::<T>());
        OrdinalSetMut {
            words,
            _phantom: PhantomData,
        }
    }

    #[inline]
    fn as_ref(&self) -> OrdinalSetRef<'_, T> {
        OrdinalSetRef::new(self.words)
    }

    #[inline]
    pub(crate) fn insert(&mut self, value: T) -> bool {
        let prev = self.as_ref().contains(&value);
        self.words[value.ordinal() / u64::BITS as usize] |=
            1 << (value.ordinal() % u64::BITS as usize);
        !prev
    }
}
"##

/-- `set/set.rs` -/
def setRs : String := r##"use std::fmt;
use std::fmt::Debug;
use std::fmt::Formatter;
use std::marker::PhantomData;
use std::slice;

use crate::set::iter::Iter;
use crate::set::set_mut::OrdinalSetMut;
use crate::set::set_ref::OrdinalSetRef;
use crate::Ordinal;

#[derive(Clone)]
enum SetImpl {
    Small(u64),
    Large(Box<[u64]>),
}

/// Default set implementation.
///
/// All operations are constant time
/// (provided that [`T::ordinal()`](Ordinal::ordinal) is constant time).
///
/// This map allocates memory when the number of elements is greater than 64.
/// When the number of elements is known to be less than or equal to 64,
/// consider using [`Set64`](crate::set::OrdinalSet64) instead.
pub struct OrdinalSet<T> {
    set: SetImpl,
    _phantom: PhantomData<T>,
}

impl<T: Ordinal> OrdinalSet<T> {
    const IS_SMALL: bool = T::ORDINAL_SIZE <= u64::BITS as usize;

    /// Create a new empty set.
    #[inline]
    pub fn new() -> Self {
        OrdinalSet {
            set: if Self::IS_SMALL {
                SetImpl::Small(0)
            } else {
                SetImpl::Large(Vec::<u64>::new().into_boxed_slice())
            },
            _phantom: PhantomData,
        }
    }

    #[inline]
    fn as_ref(&self) -> OrdinalSetRef<'_, T> {
        match (Self::IS_SMALL, &self.set) {
            (true, SetImpl::Small(set)) => OrdinalSetRef::new(slice::from_ref(set)),
            (false, SetImpl::Large(set)) => OrdinalSetRef::new(set),
            _ => unreachable!(),
        }
    }

    /// Check if the set contains an element.
    #[inline]
    pub fn contains(&self, ordinal: &T) -> bool {
        self.as_ref().contains(ordinal)
    }

    /// Insert an element into the set, returning `true` if the element was not already present.
    #[inline]
    pub fn insert(&mut self, ordinal: T) -> bool {
        match (Self::IS_SMALL, &mut self.set) {
            (true, SetImpl::Small(set)) => OrdinalSetMut::new(slice::from_mut(set)).insert(ordinal),
            (false, SetImpl::Large(set)) => {
                if set.is_empty() {
                    *set = vec![
                        0;
                        (T::ORDINAL_SIZE.checked_add(u64::BITS as usize).unwrap() - 1)
                            / u64::BITS as usize
                    ]
                    .into_boxed_slice();
                }
                OrdinalSetMut::new(set).insert(ordinal)
            }
            _ => unreachable!(),
        }
    }

    /// Iterate over the elements of the set.
    #[inline]
    pub fn iter(&self) -> Iter<'_, T> {
        self.as_ref().iter()
    }
}

impl<T: Ordinal> Default for OrdinalSet<T> {
    fn default() -> Self {
        Self::new()
    }
}

impl<T: Ordinal> FromIterator<T> for OrdinalSet<T> {
    fn from_iter<I: IntoIterator<Item = T>>(iter: I) -> Self {
        let mut set = OrdinalSet::new();
        for ordinal in iter {
            set.insert(ordinal);
        }
        set
    }
}

impl<T> Clone for OrdinalSet<T> {
    fn clone(&self) -> Self {
        OrdinalSet {
            set: self.set.clone(),
            _phantom: PhantomData,
        }
    }
}

impl<T: Ordinal + Debug> Debug for OrdinalSet<T> {
    fn fmt(&self, f: &mut Formatter<'_>) -> fmt::Result {
        Debug::fmt(&self.as_ref(), f)
    }
}

#[cfg(test)]
mod tests {
    use std::collections::HashSet;
    use std::num::NonZeroU16;

    use crate::set::OrdinalSet;
    use crate::tests::util::Example4;

    #[quickcheck]
    fn qc_insert_small(values: Vec<Example4>, check: Vec<Example4>) {
        let mut set: OrdinalSet<Example4> = OrdinalSet::new();
        let mut control: HashSet<Example4> = HashSet::new();
        for value in &values {
            let control_inserted = control.insert(*value);
            let inserted = set.insert(*value);
            assert_eq!(control_inserted, inserted);
        }

        for value in &check {
            assert_eq!(control.contains(value), set.contains(value));
        }
    }

    #[quickcheck]
    fn qc_insert_large(values: Vec<NonZeroU16>, check: Vec<NonZeroU16>) {
        let mut set: OrdinalSet<NonZeroU16> = OrdinalSet::new();
        let mut control: HashSet<NonZeroU16> = HashSet::new();
        for value in &values {
            let control_inserted = control.insert(*value);
            let inserted = set.insert(*value);
            assert_eq!(control_inserted, inserted);
        }

        for value in &check {
            assert_eq!(control.contains(value), set.contains(value));
        }
    }

    #[quickcheck]
    fn qc_iter_small(mut values: Vec<Example4>) -> bool {
        let set = OrdinalSet::from_iter(values.iter().copied());
        values.sort();
        values.dedup();
        set.iter().collect::<Vec<_>>() == values
    }

    #[quickcheck]
    fn qc_iter_large(mut values: Vec<NonZeroU16>) -> bool {
        let set = OrdinalSet::from_iter(values.iter().copied());
        values.sort();
        values.dedup();
        set.iter().collect::<Vec<_>>() == values
    }
}
"##

/-- `set/set64.rs` -/
def set64Rs : String := r##"use std::fmt;
use std::fmt::Debug;
use std::fmt::Formatter;
use std::marker::PhantomData;
use std::slice;

use crate::set::set_ref::OrdinalSetRef;
use crate::Ordinal;

/// Iterator over [`OrdinalSet64`].
pub struct Iter64<T> {
    set: u64,
    _phantom: PhantomData<T>,
}

impl<T: Ordinal> Iterator for Iter64<T> {
    type Item = T;

    #[inline]
    fn next(&mut self) -> Option<Self::Item> {
        let ordinal = self.set.trailing_zeros();
        if ordinal == u64::BITS {
            None
        } else {
            self.set &= !(1 << ordinal);
            Some(T::from_ordinal(ordinal as usize).unwrap())
        }
    }

    #[inline]
    fn size_hint(&self) -> (usize, Option<usize>) {
        let len = self.len();
        (len, Some(len))
    }
}

impl<T: Ordinal> ExactSizeIterator for Iter64<T> {
    #[inline]
    fn len(&self) -> usize {
        self.set.count_ones() as usize
    }
}

impl<T: Ordinal> DoubleEndedIterator for Iter64<T> {
    #[inline]
    fn next_back(&mut self) -> Option<Self::Item> {
        let ordinal = (u64::BITS - 1).checked_sub(self.set.leading_zeros())?;
        self.set &= !(1 << ordinal);
        Some(T::from_ordinal(ordinal as usize).unwrap())
    }
}

impl<T> Clone for Iter64<T> {
    #[inline]
    fn clone(&self) -> Self {
        Iter64 {
            set: self.set,
            _phantom: PhantomData,
        }
    }
}

impl<T: Ordinal + Debug> Debug for Iter64<T> {
    fn fmt(&self, f: &mut fmt::Formatter<'_>) -> fmt::Result {
        f.debug_list().entries(self.clone()).finish()
    }
}

/// Set for implementations of [`Ordinal`](crate::Ordinal) with a maximum ordinal size of 64.
///
/// This is implemented using a single `u64` value to store the set of elements.
/// To store set of arbitrary size, consider using [`OrdinalSet`](crate::set::OrdinalSet).
#[derive(Eq, PartialEq)]
pub struct OrdinalSet64<T> {
    set: u64,
    _phantom: PhantomData<T>,
}

impl<T: Ordinal> OrdinalSet64<T> {
    const ASSERT: () = {
        assert!(T::ORDINAL_SIZE <= u64::BITS as usize);
    };

    /// Create a new empty set.
    #[inline]
    pub const fn new() -> Self {
        const { Self::ASSERT };
        OrdinalSet64 {
            set: 0,
            _phantom: PhantomData,
        }
    }

    fn as_ref(&self) -> OrdinalSetRef<'_, T> {
        OrdinalSetRef::new(slice::from_ref(&self.set))
    }

    /// Create a set containing all possible elements of [`K`](Ordinal).
    #[inline]
    pub fn all() -> Self {
        const { Self::ASSERT };
        OrdinalSet64 {
            set: (1 << T::ORDINAL_SIZE) - 1,
            _phantom: PhantomData,
        }
    }

    /// Insert an element into the set, returning `true` if the element was not already present.
    #[inline]
    pub fn insert(&mut self, ordinal: T) -> bool {
        const { Self::ASSERT };
        let r = !self.contains(&ordinal);
        self.set |= 1 << ordinal.ordinal();
        r
    }

    /// Iterate over the elements of the set.
    #[inline]
    pub fn iter(&self) -> Iter64<T> {
        const { Self::ASSERT };
        Iter64 {
            set: self.set,
            _phantom: PhantomData,
        }
    }

    /// Check if the set contains an element.
    #[inline]
    pub fn contains(&self, ordinal: &T) -> bool {
        const { Self::ASSERT };
        self.set & (1 << ordinal.ordinal()) != 0
    }
}

impl<T: Ordinal> Default for OrdinalSet64<T> {
    fn default() -> Self {
        OrdinalSet64::new()
    }
}

impl<T: Ordinal> FromIterator<T> for OrdinalSet64<T> {
    fn from_iter<I: IntoIterator<Item = T>>(iter: I) -> Self {
        let mut set = OrdinalSet64::new();
        for ordinal in iter {
            set.set |= 1 << ordinal.ordinal();
        }
        set
    }
}

impl<T> Clone for OrdinalSet64<T> {
    fn clone(&self) -> Self {
        OrdinalSet64 {
            set: self.set,
            _phantom: PhantomData,
        }
    }
}

impl<T: Ordinal + Debug> Debug for OrdinalSet64<T> {
    fn fmt(&self, f: &mut Formatter<'_>) -> fmt::Result {
        Debug::fmt(&self.as_ref(), f)
    }
}

#[cfg(test)]
mod tests {
    use crate::set::OrdinalSet64;
    use crate::tests::util::test_exact_size_iterator;
    use crate::tests::util::Example4;

    // Fails at compilation time (as expected).
    // #[test]
    // fn test_more_than_64() {
    //     Set64::<u8>::new();
    // }

    #[test]
    fn test_all() {
        let set = OrdinalSet64::<Example4>::all();
        assert_eq!(set.set, 0b1111);
    }

    #[quickcheck]
    fn qc_iterator(mut values: Vec<Example4>) -> bool {
        let set = OrdinalSet64::from_iter(values.iter().copied());
        values.sort();
        values.dedup();
        set.iter().collect::<Vec<_>>() == values
    }

    #[quickcheck]
    fn qc_double_ended_iterator(mut values: Vec<Example4>) -> bool {
        let set = OrdinalSet64::from_iter(values.iter().copied());
        values.sort();
        values.dedup();
        set.iter().rev().collect::<Vec<_>>() == values.into_iter().rev().collect::<Vec<_>>()
    }

    #[quickcheck]
    fn qc_exact_size_iterator(values: Vec<Example4>) {
        test_exact_size_iterator(OrdinalSet64::from_iter(values).iter());
    }
}
"##

end OrdinalMap.Text
