/-!
# Source texts

Copies of files of the crate, made and checked by `tools/text.py`.
-/

namespace OrdinalMap.Text

/-- `map/enumerate.rs` -/
def mapEnumerateRs : String := r##"use std::marker::PhantomData;

use crate::Ordinal;

pub(crate) struct OrdinalEnumerate<K, I> {
    pub(crate) next: usize,
    pub(crate) iter: I,
    _phantom: PhantomData<K>,
}

impl<K, I> OrdinalEnumerate<K, I> {
    pub(crate) fn new(iter: I, next: usize) -> Self {
        OrdinalEnumerate {
            next,
            iter,
            _phantom: PhantomData,
        }
    }
}

impl<K: Ordinal, I: Iterator> Iterator for OrdinalEnumerate<K, I> {
    type Item = (K, I::Item);

    #[inline]
    fn next(&mut self) -> Option<Self::Item> {
        let v = self.iter.next()?;
        let k = K::from_ordinal(self.next).unwrap();
        self.next += 1;
        Some((k, v))
    }

    #[inline]
    fn size_hint(&self) -> (usize, Option<usize>) {
        self.iter.size_hint()
    }
}

impl<K: Ordinal, I: ExactSizeIterator> ExactSizeIterator for OrdinalEnumerate<K, I> {
    #[inline]
    fn len(&self) -> usize {
        self.iter.len()
    }
}

impl<K: Ordinal, I: ExactSizeIterator + DoubleEndedIterator> DoubleEndedIterator
    for OrdinalEnumerate<K, I>
{
    #[inline]
    fn next_back(&mut self) -> Option<Self::Item> {
        let v = self.iter.next_back()?;
        let k = K::from_ordinal(self.next + self.iter.len()).unwrap();
        Some((k, v))
    }
}

impl<K, I: Clone> Clone for OrdinalEnumerate<K, I> {
    #[inline]
    fn clone(&self) -> Self {
        OrdinalEnumerate {
            next: self.next,
            iter: self.iter.clone(),
            _phantom: PhantomData,
        }
    }
}
"##

/-- `map/total/iter.rs` -/
def totalIterRs : String := r##"use std::array;
use std::fmt;
use std::fmt::Debug;
use std::fmt::Formatter;
use std::slice;
use std::vec;

use crate::map::enumerate::OrdinalEnumerate;
use crate::Ordinal;

/// Iterator created from
/// [`OrdinalTotalMap`](crate::map::total::OrdinalTotalMap) and
/// [`OrdinalTotalArrayMap`](crate::map::total::OrdinalTotalArrayMap).
pub struct Iter<'a, K, V> {
    iter: OrdinalEnumerate<K, slice::Iter<'a, V>>,
}

impl<'a, K, V> Iter<'a, K, V> {
    pub(crate) fn new(iter: slice::Iter<'a, V>, next: usize) -> Self {
        Iter {
            iter: OrdinalEnumerate::new(iter, next),
        }
    }
}

impl<'a, K: Ordinal, V> Iterator for Iter<'a, K, V> {
    type Item = (K, &'a V);

    #[inline]
    fn next(&mut self) -> Option<Self::Item> {
        self.iter.next()
    }

    fn size_hint(&self) -> (usize, Option<usize>) {
        self.iter.size_hint()
    }
}

impl<'a, K: Ordinal, V> ExactSizeIterator for Iter<'a, K, V> {
    fn len(&self) -> usize {
        self.iter.len()
    }
}

impl<'a, K: Ordinal, V> DoubleEndedIterator for Iter<'a, K, V> {
    #[inline]
    fn next_back(&mut self) -> Option<Self::Item> {
        self.iter.next_back()
    }
}

impl<'a, K, V> Clone for Iter<'a, K, V> {
    fn clone(&self) -> Self {
        Iter {
            iter: self.iter.clone(),
        }
    }
}

impl<'a, K: Ordinal + Debug, V: Debug> Debug for Iter<'a, K, V> {
    fn fmt(&self, f: &mut Formatter<'_>) -> fmt::Result {
        f.debug_list().entries(self.clone()).finish()
    }
}

/// Mutable iterator created from
/// [`OrdinalTotalMap`](crate::map::total::OrdinalTotalMap) and
/// [`OrdinalTotalArrayMap`](crate::map::total::OrdinalTotalArrayMap).
pub struct IterMut<'a, K, V> {
    iter: OrdinalEnumerate<K, slice::IterMut<'a, V>>,
}

impl<'a, K: Ordinal, V> IterMut<'a, K, V> {
    #[inline]
    pub(crate) fn new(iter: slice::IterMut<'a, V>) -> Self {
        IterMut {
            iter: OrdinalEnumerate::new(iter, 0),
        }
    }

    pub(crate) fn iter(&self) -> Iter<'_, K, V> {
        Iter::new(self.iter.iter.as_slice().iter(), self.iter.next)
    }
}

impl<'a, K: Ordinal, V> Iterator for IterMut<'a, K, V> {
    type Item = (K, &'a mut V);

    fn next(&mut self) -> Option<Self::Item> {
        self.iter.next()
    }

    fn size_hint(&self) -> (usize, Option<usize>) {
        self.iter.size_hint()
    }
}

impl<'a, K: Ordinal, V> ExactSizeIterator for IterMut<'a, K, V> {
    fn len(&self) -> usize {
        self.iter.len()
    }
}

impl<'a, K: Ordinal, V> DoubleEndedIterator for IterMut<'a, K, V> {
    fn next_back(&mut self) -> Option<Self::Item> {
        self.iter.next_back()
    }
}

impl<'a, K: Ordinal + Debug, V: Debug> Debug for IterMut<'a, K, V> {
    fn fmt(&self, f: &mut Formatter<'_>) -> fmt::Result {
        f.debug_list().entries(self.iter()).finish()
    }
}

/// Iterator created from [`TotalArrayMap`](crate::map::total::OrdinalTotalArrayMap).
pub struct IntoIterArray<K, V, const S: usize> {
    iter: OrdinalEnumerate<K, array::IntoIter<V, S>>,
}

impl<K, V, const S: usize> IntoIterArray<K, V, S> {
    #[inline]
    pub(crate) fn new(iter: array::IntoIter<V, S>) -> Self {
        IntoIterArray {
            iter: OrdinalEnumerate::new(iter, 0),
        }
    }

    pub(crate) fn iter(&self) -> Iter<'_, K, V> {
        Iter::new(self.iter.iter.as_slice().iter(), self.iter.next)
    }
}

impl<K: Ordinal, V, const S: usize> Iterator for IntoIterArray<K, V, S> {
    type Item = (K, V);

    #[inline]
    fn next(&mut self) -> Option<Self::Item> {
        self.iter.next()
    }
}

impl<K: Ordinal, V, const S: usize> ExactSizeIterator for IntoIterArray<K, V, S> {
    fn len(&self) -> usize {
        self.iter.len()
    }
}

impl<K: Ordinal, V, const S: usize> DoubleEndedIterator for IntoIterArray<K, V, S> {
    #[inline]
    fn next_back(&mut self) -> Option<Self::Item> {
        self.iter.next_back()
    }
}

impl<K, V: Clone, const S: usize> Clone for IntoIterArray<K, V, S> {
    fn clone(&self) -> Self {
        IntoIterArray {
            iter: self.iter.clone(),
        }
    }
}

impl<K: Ordinal + Debug, V: Debug, const S: usize> Debug for IntoIterArray<K, V, S> {
    fn fmt(&self, f: &mut Formatter<'_>) -> fmt::Result {
        f.debug_list().entries(self.iter()).finish()
    }
}

/// Iterator created from [`OrdinalTotalMap`](crate::map::total::OrdinalTotalMap).
pub struct IntoIter<K, V> {
    iter: OrdinalEnumerate<K, vec::IntoIter<V>>,
}

impl<K, V> IntoIter<K, V> {
    #[inline]
    pub(crate) fn new(iter: vec::IntoIter<V>) -> Self {
        IntoIter {
            iter: OrdinalEnumerate::new(iter, 0),
        }
    }

    pub(crate) fn iter(&self) -> Iter<'_, K, V> {
        Iter::new(self.iter.iter.as_slice().iter(), self.iter.next)
    }
}

impl<K: Ordinal, V> Iterator for IntoIter<K, V> {
    type Item = (K, V);

    #[inline]
    fn next(&mut self) -> Option<Self::Item> {
        self.iter.next()
    }

    #[inline]
    fn size_hint(&self) -> (usize, Option<usize>) {
        self.iter.size_hint()
    }
}

impl<K: Ordinal, V> ExactSizeIterator for IntoIter<K, V> {
    #[inline]
    fn len(&self) -> usize {
        self.iter.len()
    }
}

impl<K: Ordinal, V> DoubleEndedIterator for IntoIter<K, V> {
    #[inline]
    fn next_back(&mut self) -> Option<Self::Item> {
        self.iter.next_back()
    }
}

impl<K: Ordinal + Debug, V: Debug> Debug for IntoIter<K, V> {
    fn fmt(&self, f: &mut Formatter<'_>) -> fmt::Result {
        f.debug_list().entries(self.iter()).finish()
    }
}

impl<K, V: Clone> Clone for IntoIter<K, V> {
    fn clone(&self) -> Self {
        IntoIter {
            iter: self.iter.clone(),
        }
    }
}
"##

/-- `map/total/map.rs` -/
def totalMapRs : String := r##"use std::convert::Infallible;
use std::fmt::Debug;
use std::fmt::Formatter;
use std::marker::PhantomData;
use std::mem;
use std::ops::Index;
use std::ops::IndexMut;
use std::slice;

use crate::map::total::iter::Iter;
use crate::map::total::IntoIter;
use crate::map::total::IterMut;
use crate::Ordinal;

/// Map implementation where all values must be initialized at creation.
///
/// This version of map allocates values on the heap in a single contiguous block.
/// For a version that doesn't require heap allocation,
/// see [`InitArrayMap`](crate::map::total::OrdinalTotalArrayMap).
pub struct OrdinalTotalMap<T, V> {
    map: Box<[V]>,
    _phantom: PhantomData<T>,
}

impl<K: Ordinal, V> OrdinalTotalMap<K, V> {
    /// Create a new map by initializing each value with a function.
    pub fn try_new<E>(mut init: impl FnMut(K) -> Result<V, E>) -> Result<Self, E> {
        let mut map = Vec::with_capacity(K::ORDINAL_SIZE);
        for v in K::all_values() {
            map.push(init(v)?);
        }
        Ok(OrdinalTotalMap {
            map: map.into_boxed_slice(),
            _phantom: PhantomData,
        })
    }

    /// Create a new map by initializing each value with a function.
    pub fn new(mut init: impl FnMut(K) -> V) -> Self {
        match Self::try_new(move |k| Ok::<_, Infallible>(init(k))) {
            Ok(map) => map,
            Err(infallible) => match infallible {},
        }
    }

    /// Returns the number of elements in the map, which is
    /// always equal to [`K::ORDINAL_SIZE`](Ordinal::ORDINAL_SIZE).
    pub const fn len(&self) -> usize {
        K::ORDINAL_SIZE
    }

    /// Return true if the map container no elements.
    /// This is only if `<K>` is empty.
    pub const fn is_empty(&self) -> bool {
        self.len() == 0
    }

    /// Returns a reference to the value corresponding to the key.
    pub fn get<'a>(&'a self, key: &K) -> &'a V {
        &self.map[key.ordinal()]
    }

    /// Returns a mutable reference to the value corresponding to the key.
    pub fn get_mut<'a>(&'a mut self, key: &K) -> &'a mut V {
        &mut self.map[key.ordinal()]
    }

    /// Iterate keys of the map, which is equivalent to iterating all possible values of `K`.
    pub fn keys(&self) -> crate::OrdinalValues<K> {
        K::all_values()
    }

    /// Iterate values of the map, which is equivalent to iterating all possible values of `K`.
    pub fn into_keys(self) -> crate::OrdinalValues<K> {
        K::all_values()
    }

    /// Iterate values of the map.
    pub fn values<'a>(&'a self) -> slice::Iter<'a, V> {
        self.map.iter()
    }

    /// Iterate mutable references to values of the map.
    pub fn values_mut<'a>(&'a mut self) -> slice::IterMut<'a, V> {
        self.map.iter_mut()
    }

    /// Obtain the values from the map.
    pub fn into_values(self) -> Box<[V]> {
        self.map
    }

    /// Iterate over the map.
    #[inline]
    pub fn iter<'a>(&'a self) -> Iter<'a, K, V> {
        Iter::new(self.map.iter(), 0)
    }

    /// Iterate over the map mutably.
    #[inline]
    pub fn iter_mut<'a>(&'a mut self) -> IterMut<'a, K, V> {
        IterMut::new(self.map.iter_mut())
    }

    /// Insert a value into the map, returning the previous value.
    #[inline]
    pub fn insert(&mut self, key: K, value: V) -> V {
        mem::replace(&mut self.map[key.ordinal()], value)
    }
}

impl<K: Ordinal, V: Default> Default for OrdinalTotalMap<K, V> {
    fn default() -> Self {
        OrdinalTotalMap::new(|_| V::default())
    }
}

impl<'a, K: Ordinal, V> Index<&'a K> for OrdinalTotalMap<K, V> {
    type Output = V;

    fn index(&self, key: &'a K) -> &Self::Output {
        self.get(key)
    }
}

impl<'a, K: Ordinal, V> IndexMut<&'a K> for OrdinalTotalMap<K, V> {
    fn index_mut(&mut self, key: &'a K) -> &mut Self::Output {
        self.get_mut(key)
    }
}

impl<K, V: Clone> Clone for OrdinalTotalMap<K, V> {
    fn clone(&self) -> Self {
        OrdinalTotalMap {
            map: self.map.clone(),
            _phantom: PhantomData,
        }
    }
}

impl<K: Ordinal + Debug, V: Debug> Debug for OrdinalTotalMap<K, V> {
    fn fmt(&self, f: &mut Formatter<'_>) -> std::fmt::Result {
        f.debug_map().entries(self.iter()).finish()
    }
}

impl<K: Ordinal, V> IntoIterator for OrdinalTotalMap<K, V> {
    type Item = (K, V);
    type IntoIter = IntoIter<K, V>;

    fn into_iter(self) -> Self::IntoIter {
        IntoIter::new(self.map.into_vec().into_iter())
    }
}

impl<'a, K: Ordinal, V> IntoIterator for &'a OrdinalTotalMap<K, V> {
    type Item = (K, &'a V);
    type IntoIter = Iter<'a, K, V>;

    fn into_iter(self) -> Self::IntoIter {
        self.iter()
    }
}

#[cfg(test)]
mod tests {
    #[test]
    fn test() {}
}
"##

/-- `map/total/array_map.rs` -/
def totalArrayMapRs : String := r##"use std::convert::Infallible;
use std::fmt::Debug;
use std::marker::PhantomData;
use std::mem;
use std::ops::Index;
use std::ops::IndexMut;
use std::slice;

use crate::array_as_mut::array_as_mut;
use crate::array_builder::ArrayBuilder;
use crate::array_from_iter::array_from_iter;
use crate::map::total::IntoIterArray;
use crate::map::total::Iter;
use crate::map::total::IterMut;
use crate::Ordinal;

/// Like [`OrdinalTotalMap`](crate::map::total::OrdinalTotalMap), but without heap allocation.
///
/// Due to limitations of stable Rust, ordinal size must be passed as a third type parameter.
///
/// # Example
///
/// ```
/// use ordinal_map::map::total::OrdinalTotalArrayMap;
/// use ordinal_map::Ordinal;
///
/// #[derive(Ordinal, Debug)]
/// enum Color {
///     Red,
///     Green,
///     Blue,
/// }
///
/// let map: OrdinalTotalArrayMap<Color, String, { Color::ORDINAL_SIZE }> =
///     OrdinalTotalArrayMap::new(|color| format!("{color:?}").to_lowercase());
///
/// assert_eq!("green", map[&Color::Green]);
/// ```
#[repr(C)]
pub struct OrdinalTotalArrayMap<K, V, const S: usize> {
    map: [V; S],
    _phantom: PhantomData<K>,
}

impl<K: Ordinal, V, const S: usize> OrdinalTotalArrayMap<K, V, S> {
    const ASSERT: () = {
        assert!(K::ORDINAL_SIZE == S, "K::ORDINAL_SIZE != S");
    };

    /// Create a new map by initializing each value with a function.
    pub fn try_new<E>(mut init: impl FnMut(K) -> Result<V, E>) -> Result<Self, E> {
        const { Self::ASSERT };
        let mut a = ArrayBuilder::new();
        for v in K::all_values() {
            a.push(init(v)?);
        }
        Ok(OrdinalTotalArrayMap {
            map: a.finish(),
            _phantom: PhantomData,
        })
    }

    /// Create a new map by initializing each value with a function.
    pub fn new(mut init: impl FnMut(K) -> V) -> Self {
        const { Self::ASSERT };
        match Self::try_new(move |k| Ok::<_, Infallible>(init(k))) {
            Ok(map) => map,
            Err(infallible) => match infallible {},
        }
    }

    /// Create a new map from an array of values in ordinal order of keys.
    pub fn from_array(array: [V; S]) -> Self {
        OrdinalTotalArrayMap {
            map: array,
            _phantom: PhantomData,
        }
    }

    /// Returns the number of elements in the map, which is
    /// always equal to [`K::ORDINAL_SIZE`](Ordinal::ORDINAL_SIZE).
    pub const fn len(&self) -> usize {
        S
    }

    /// Return true if the map container no elements.
    pub const fn is_empty(&self) -> bool {
        self.len() == 0
    }

    /// Returns a reference to the value corresponding to the key.
    pub fn get<'a>(&'a self, key: &K) -> &'a V {
        &self.map[key.ordinal()]
    }

    /// Returns a mutable reference to the value corresponding to the key.
    pub fn get_mut<'a>(&'a mut self, key: &K) -> &'a mut V {
        &mut self.map[key.ordinal()]
    }

    /// Return a new map with values as references to values of the original map.
    pub fn as_ref(&self) -> OrdinalTotalArrayMap<K, &V, S> {
        OrdinalTotalArrayMap::new(|k| self.get(&k))
    }

    /// Return a new map with values as mutable references to values of the original map.
    pub fn as_mut(&mut self) -> OrdinalTotalArrayMap<K, &mut V, S> {
        OrdinalTotalArrayMap::from_array(array_as_mut(&mut self.map))
    }

    /// Combine two maps into one.
    pub fn zip<W>(
        self,
        other: OrdinalTotalArrayMap<K, W, S>,
    ) -> OrdinalTotalArrayMap<K, (V, W), S> {
        OrdinalTotalArrayMap {
            map: array_from_iter(self.map.into_iter().zip(other.map)),
            _phantom: PhantomData,
        }
    }

    /// Map the values of the map.
    pub fn map<W>(self, mut f: impl FnMut(K, V) -> W) -> OrdinalTotalArrayMap<K, W, S> {
        OrdinalTotalArrayMap {
            map: array_from_iter(self.into_iter().map(|(k, v)| f(k, v))),
            _phantom: PhantomData,
        }
    }

    /// Map the values of the map.
    pub fn map_values<W>(self, mut f: impl FnMut(V) -> W) -> OrdinalTotalArrayMap<K, W, S> {
        self.map(|_k, v| f(v))
    }

    /// Iterate over the map.
    pub fn iter<'a>(&'a self) -> Iter<'a, K, V> {
        Iter::new(self.map.iter(), 0)
    }

    /// Iterate over the map mutably.
    pub fn iter_mut<'a>(&'a mut self) -> IterMut<'a, K, V> {
        IterMut::new(self.map.iter_mut())
    }

    /// Iterate keys of the map, which is equivalent to iterating all possible values of `K`.
    pub fn keys(&self) -> crate::OrdinalValues<K> {
        K::all_values()
    }

    /// Convert the map into an iterator over keys.
    ///
    /// This operation is identical to [`keys`](OrdinalTotalArrayMap::keys),
    /// but added here for consistency with other map implementations.
    pub fn into_keys(self) -> crate::OrdinalValues<K> {
        self.keys()
    }

    /// Iterate values of the map.
    pub fn values<'a>(&'a self) -> slice::Iter<'a, V> {
        self.map.iter()
    }

    /// Values arrays.
    pub fn values_array(&self) -> &[V; S] {
        &self.map
    }

    /// Iterate mutable references to values of the map.
    pub fn values_mut<'a>(&'a mut self) -> slice::IterMut<'a, V> {
        self.map.iter_mut()
    }

    /// Values arrays.
    pub fn values_array_mut(&mut self) -> &mut [V; S] {
        &mut self.map
    }

    /// Convert the map into an array of values.
    pub fn into_values(self) -> [V; S] {
        self.map
    }

    /// Insert a value into the map, returning the previous value.
    #[inline]
    pub fn insert(&mut self, key: K, value: V) -> V {
        mem::replace(&mut self.map[key.ordinal()], value)
    }
}

impl<'a, K: Ordinal, V, const S: usize> Index<&'a K> for OrdinalTotalArrayMap<K, V, S> {
    type Output = V;

    fn index(&self, index: &'a K) -> &Self::Output {
        &self.map[index.ordinal()]
    }
}

impl<'a, K: Ordinal, V, const S: usize> IndexMut<&'a K> for OrdinalTotalArrayMap<K, V, S> {
    fn index_mut(&mut self, index: &'a K) -> &mut Self::Output {
        &mut self.map[index.ordinal()]
    }
}

impl<K, V: Clone, const S: usize> Clone for OrdinalTotalArrayMap<K, V, S> {
    fn clone(&self) -> Self {
        OrdinalTotalArrayMap {
            map: self.map.clone(),
            _phantom: PhantomData,
        }
    }
}

impl<K: Ordinal, V: Default, const S: usize> Default for OrdinalTotalArrayMap<K, V, S> {
    fn default() -> Self {
        OrdinalTotalArrayMap::new(|_| V::default())
    }
}

impl<K: Ordinal + Debug, V: Debug, const S: usize> Debug for OrdinalTotalArrayMap<K, V, S> {
    fn fmt(&self, f: &mut std::fmt::Formatter<'_>) -> std::fmt::Result {
        f.debug_map().entries(self.iter()).finish()
    }
}

impl<K: Ordinal, V, const S: usize> IntoIterator for OrdinalTotalArrayMap<K, V, S> {
    type Item = (K, V);
    type IntoIter = IntoIterArray<K, V, S>;

    fn into_iter(self) -> Self::IntoIter {
        IntoIterArray::new(self.map.into_iter())
    }
}

impl<'a, K: Ordinal, V, const S: usize> IntoIterator for &'a OrdinalTotalArrayMap<K, V, S> {
    type Item = (K, &'a V);
    type IntoIter = Iter<'a, K, V>;

    fn into_iter(self) -> Self::IntoIter {
        self.iter()
    }
}

#[cfg(test)]
mod tests {
    #[test]
    fn test() {}
}
"##

/-- `map/iter.rs` -/
def mapIterRs : String := r##"use std::fmt::Debug;
use std::fmt::Formatter;
use std::marker::PhantomData;
use std::mem;

use crate::map::total;
use crate::Ordinal;

/// Iterator over the entries of
/// [`OrdinalMap`](crate::map::OrdinalMap) and [`OrdinalArrayMap`](crate::map::OrdinalArrayMap).
pub struct Iter<'a, K, V> {
    iter: total::Iter<'a, K, Option<V>>,
}

impl<'a, K, V> Iter<'a, K, V> {
    #[inline]
    pub(crate) fn new(iter: total::Iter<'a, K, Option<V>>) -> Self {
        Iter { iter }
    }
}

impl<'a, K: Ordinal, V> Iterator for Iter<'a, K, V> {
    type Item = (K, &'a V);

    #[inline]
    fn next(&mut self) -> Option<Self::Item> {
        loop {
            let next = self.iter.next()?;
            if let (k, Some(v)) = next {
                return Some((k, v));
            }
        }
    }

    #[inline]
    fn size_hint(&self) -> (usize, Option<usize>) {
        (0, Some(self.iter.len()))
    }
}

impl<'a, K: Ordinal, V> DoubleEndedIterator for Iter<'a, K, V> {
    #[inline]
    fn next_back(&mut self) -> Option<Self::Item> {
        loop {
            let next = self.iter.next_back()?;
            if let (k, Some(v)) = next {
                return Some((k, v));
            }
        }
    }
}

impl<'a, K, V> Clone for Iter<'a, K, V> {
    #[inline]
    fn clone(&self) -> Self {
        Iter {
            iter: self.iter.clone(),
        }
    }
}

impl<'a, K: Ordinal + Debug, V: Debug> Debug for Iter<'a, K, V> {
    fn fmt(&self, f: &mut std::fmt::Formatter<'_>) -> std::fmt::Result {
        f.debug_list().entries(self.clone()).finish()
    }
}

/// Iterator over mutable references to the entries of
/// [`OrdinalMap`](crate::map::OrdinalMap) and [`OrdinalArrayMap`](crate::map::OrdinalArrayMap).
pub struct IterMut<'a, K, V> {
    iter: total::IterMut<'a, K, Option<V>>,
}

impl<'a, K: Ordinal, V> IterMut<'a, K, V> {
    #[inline]
    pub(crate) fn new(iter: total::IterMut<'a, K, Option<V>>) -> Self {
        IterMut { iter }
    }

    fn iter(&self) -> Iter<'_, K, V> {
        Iter::new(self.iter.iter())
    }
}

impl<'a, K: Ordinal, V> Iterator for IterMut<'a, K, V> {
    type Item = (K, &'a mut V);

    #[inline]
    fn next(&mut self) -> Option<Self::Item> {
        loop {
            let next = self.iter.next()?;
            if let (k, Some(v)) = next {
                return Some((k, v));
            }
        }
    }

    #[inline]
    fn size_hint(&self) -> (usize, Option<usize>) {
        (0, Some(self.iter.len()))
    }
}

impl<'a, K: Ordinal, V> DoubleEndedIterator for IterMut<'a, K, V> {
    #[inline]
    fn next_back(&mut self) -> Option<Self::Item> {
        loop {
            let next = self.iter.next_back()?;
            if let (k, Some(v)) = next {
                return Some((k, v));
            }
        }
    }
}

impl<'a, K: Ordinal + Debug, V: Debug> Debug for IterMut<'a, K, V> {
    fn fmt(&self, f: &mut Formatter<'_>) -> std::fmt::Result {
        f.debug_list().entries(self.iter()).finish()
    }
}

/// Iterator over the keys of [`OrdinalMap`](crate::map::OrdinalMap)
/// and [`OrdinalArrayMap`](crate::map::OrdinalArrayMap).
pub struct Keys<'a, K, V> {
    iter: Iter<'a, K, V>,
}

impl<'a, K: Ordinal, V> Keys<'a, K, V> {
    #[inline]
    pub(crate) fn new(iter: Iter<'a, K, V>) -> Self {
        Keys { iter }
    }
}

impl<'a, K: Ordinal, V> Iterator for Keys<'a, K, V> {
    type Item = K;

    #[inline]
    fn next(&mut self) -> Option<Self::Item> {
        self.iter.next().map(|(k, _)| k)
    }

    #[inline]
    fn size_hint(&self) -> (usize, Option<usize>) {
        self.iter.size_hint()
    }
}

impl<'a, K: Ordinal, V> DoubleEndedIterator for Keys<'a, K, V> {
    #[inline]
    fn next_back(&mut self) -> Option<Self::Item> {
        self.iter.next_back().map(|(k, _)| k)
    }
}

impl<'a, K: Ordinal, V> Clone for Keys<'a, K, V> {
    #[inline]
    fn clone(&self) -> Self {
        Keys {
            iter: self.iter.clone(),
        }
    }
}

impl<'a, K: Ordinal + Debug> Debug for Keys<'a, K, ()> {
    fn fmt(&self, f: &mut Formatter<'_>) -> std::fmt::Result {
        f.debug_list().entries(self.clone()).finish()
    }
}

/// Iterator over the values of [`OrdinalMap`](crate::map::OrdinalMap)
/// and [`OrdinalArrayMap`](crate::map::OrdinalArrayMap).
pub struct Values<'a, K, V> {
    iter: Iter<'a, K, V>,
}

impl<'a, K: Ordinal, V> Values<'a, K, V> {
    #[inline]
    pub(crate) fn new(iter: Iter<'a, K, V>) -> Self {
        Values { iter }
    }
}

impl<'a, K: Ordinal, V> Iterator for Values<'a, K, V> {
    type Item = &'a V;

    #[inline]
    fn next(&mut self) -> Option<Self::Item> {
        self.iter.next().map(|(_, v)| v)
    }

    #[inline]
    fn size_hint(&self) -> (usize, Option<usize>) {
        self.iter.size_hint()
    }
}

impl<'a, K: Ordinal, V> DoubleEndedIterator for Values<'a, K, V> {
    #[inline]
    fn next_back(&mut self) -> Option<Self::Item> {
        self.iter.next_back().map(|(_, v)| v)
    }
}

impl<'a, K: Ordinal, V> Clone for Values<'a, K, V> {
    #[inline]
    fn clone(&self) -> Self {
        Values {
            iter: self.iter.clone(),
        }
    }
}

impl<'a, K: Ordinal + Debug, V: Debug> Debug for Values<'a, K, V> {
    fn fmt(&self, f: &mut Formatter<'_>) -> std::fmt::Result {
        f.debug_list().entries(self.clone()).finish()
    }
}

/// Iterator over mutable references to the values of
/// [`OrdinalMap`](crate::map::OrdinalMap) and [`OrdinalArrayMap`](crate::map::OrdinalArrayMap).
pub struct ValuesMut<'a, K, V> {
    iter: IterMut<'a, K, V>,
}

impl<'a, K: Ordinal, V> ValuesMut<'a, K, V> {
    #[inline]
    pub(crate) fn new(iter: IterMut<'a, K, V>) -> Self {
        ValuesMut { iter }
    }

    fn iter(&self) -> Values<'_, K, V> {
        Values {
            iter: self.iter.iter(),
        }
    }
}

impl<'a, K: Ordinal, V> Iterator for ValuesMut<'a, K, V> {
    type Item = &'a mut V;

    #[inline]
    fn next(&mut self) -> Option<Self::Item> {
        self.iter.next().map(|(_, v)| v)
    }

    #[inline]
    fn size_hint(&self) -> (usize, Option<usize>) {
        self.iter.size_hint()
    }
}

impl<'a, K: Ordinal, V> DoubleEndedIterator for ValuesMut<'a, K, V> {
    #[inline]
    fn next_back(&mut self) -> Option<Self::Item> {
        self.iter.next_back().map(|(_, v)| v)
    }
}

impl<'a, K: Ordinal + Debug, V: Debug> Debug for ValuesMut<'a, K, V> {
    fn fmt(&self, f: &mut Formatter<'_>) -> std::fmt::Result {
        f.debug_list().entries(self.iter()).finish()
    }
}

/// Iterator that removes all key-value pairs from [`OrdinalMap`](crate::map::OrdinalMap)
/// or [`OrdinalArrayMap`](crate::map::OrdinalArrayMap).
pub struct Drain<'a, K: Ordinal, V> {
    iter: total::IterMut<'a, K, Option<V>>,
}

impl<'a, K: Ordinal, V> Drain<'a, K, V> {
    pub(crate) fn new(iter: total::IterMut<'a, K, Option<V>>) -> Self {
        Drain { iter }
    }
}

impl<'a, K: Ordinal, V> Drop for Drain<'a, K, V> {
    fn drop(&mut self) {
        for _ in self {}
    }
}

impl<'a, K: Ordinal, V> Iterator for Drain<'a, K, V> {
    type Item = (K, V);

    fn next(&mut self) -> Option<Self::Item> {
        loop {
            let (k, v) = self.iter.next()?;
            if let Some(v) = mem::take(v) {
                return Some((k, v));
            }
        }
    }

    fn size_hint(&self) -> (usize, Option<usize>) {
        (0, Some(self.iter.len()))
    }
}

impl<'a, K: Ordinal, V> DoubleEndedIterator for Drain<'a, K, V> {
    fn next_back(&mut self) -> Option<Self::Item> {
        loop {
            let (k, v) = self.iter.next_back()?;
            if let Some(v) = mem::take(v) {
                return Some((k, v));
            }
        }
    }
}

/// Iterator created from [`OrdinalInitArrayMap`](total::OrdinalTotalArrayMap).
pub struct IntoIterArray<K, V, const S: usize> {
    iter: total::IntoIterArray<K, Option<V>, S>,
    _phantom: PhantomData<K>,
}

impl<K: Ordinal, V, const S: usize> IntoIterArray<K, V, S> {
    #[inline]
    pub(crate) fn new(iter: total::IntoIterArray<K, Option<V>, S>) -> Self {
        IntoIterArray {
            iter,
            _phantom: PhantomData,
        }
    }

    fn iter(&self) -> Iter<'_, K, V> {
        Iter::new(self.iter.iter())
    }
}

impl<K: Ordinal, V, const S: usize> Iterator for IntoIterArray<K, V, S> {
    type Item = (K, V);

    #[inline]
    fn next(&mut self) -> Option<Self::Item> {
        loop {
            let (k, v) = self.iter.next()?;
            if let Some(v) = v {
                return Some((k, v));
            }
        }
    }
}

impl<K: Ordinal, V, const S: usize> DoubleEndedIterator for IntoIterArray<K, V, S> {
    #[inline]
    fn next_back(&mut self) -> Option<Self::Item> {
        loop {
            let (k, v) = self.iter.next_back()?;
            if let Some(v) = v {
                return Some((k, v));
            }
        }
    }
}

impl<K: Ordinal + Debug, V: Debug, const S: usize> Debug for IntoIterArray<K, V, S> {
    fn fmt(&self, f: &mut Formatter<'_>) -> std::fmt::Result {
        f.debug_list().entries(self.iter()).finish()
    }
}

impl<K, V: Clone, const S: usize> Clone for IntoIterArray<K, V, S> {
    fn clone(&self) -> Self {
        IntoIterArray {
            iter: self.iter.clone(),
            _phantom: PhantomData,
        }
    }
}

/// Iterator created from [`OrdinalMap`](crate::map::OrdinalMap).
pub struct IntoIter<K, V> {
    iter: total::IntoIter<K, Option<V>>,
}

impl<K, V> IntoIter<K, V> {
    pub(crate) fn new(iter: total::IntoIter<K, Option<V>>) -> Self {
        IntoIter { iter }
    }

    fn iter(&self) -> Iter<'_, K, V> {
        Iter::new(self.iter.iter())
    }
}

impl<K: Ordinal, V> Iterator for IntoIter<K, V> {
    type Item = (K, V);

    #[inline]
    fn next(&mut self) -> Option<Self::Item> {
        loop {
            let (k, v) = self.iter.next()?;
            if let Some(v) = v {
                return Some((k, v));
            }
        }
    }

    fn size_hint(&self) -> (usize, Option<usize>) {
        (0, Some(self.iter.len()))
    }
}

impl<K: Ordinal, V> DoubleEndedIterator for IntoIter<K, V> {
    fn next_back(&mut self) -> Option<Self::Item> {
        loop {
            let (k, v) = self.iter.next_back()?;
            if let Some(v) = v {
                return Some((k, v));
            }
        }
    }
}

impl<K: Ordinal + Debug, V: Debug> Debug for IntoIter<K, V> {
    fn fmt(&self, f: &mut Formatter<'_>) -> std::fmt::Result {
        f.debug_list().entries(self.iter()).finish()
    }
}

impl<K, V: Clone> Clone for IntoIter<K, V> {
    fn clone(&self) -> Self {
        IntoIter {
            iter: self.iter.clone(),
        }
    }
}
"##

/-- `map/entry.rs` -/
def mapEntryRs : String := r##"/// Reference to the occupied entry in [`OrdinalMap`](crate::map::OrdinalMap)
/// or [`OrdinalArrayMap`](crate::map::OrdinalArrayMap).
pub struct OccupiedEntry<'a, K, V> {
    key: K,
    /// We know that the entry is `Some`.
    entry: &'a mut Option<V>,
}

/// Reference to the vacant entry in [`OrdinalMap`](crate::map::OrdinalMap)
/// or [`OrdinalArrayMap`](crate::map::OrdinalArrayMap).
pub struct VacantEntry<'a, K, V> {
    key: K,
    /// We know that the entry is `None`.
    entry: &'a mut Option<V>,
}

/// Entry API.
///
/// Operations with [`OrdinalMap`](crate::map::OrdinalMap)
/// and [`OrdinalArrayMap`](crate::map::OrdinalArrayMap) are
/// constant time, and this API is provided for convenience.
pub enum Entry<'a, K, V> {
    /// Occupied entry.
    Occupied(OccupiedEntry<'a, K, V>),
    /// Vacant entry.
    Vacant(VacantEntry<'a, K, V>),
}

impl<'a, K, V> OccupiedEntry<'a, K, V> {
    /// Get the key of the entry.
    #[inline]
    pub fn key(&self) -> &K {
        &self.key
    }

    /// Get a reference to the value in the entry.
    #[inline]
    pub fn get(&self) -> &V {
        self.entry.as_ref().unwrap()
    }

    /// Get a mutable reference to the value in the entry.
    #[inline]
    pub fn get_mut(&mut self) -> &mut V {
        self.entry.as_mut().unwrap()
    }
}

impl<'a, K, V> VacantEntry<'a, K, V> {
    /// Get the key of the entry.
    #[inline]
    pub fn key(&self) -> &K {
        &self.key
    }

    /// Insert a value into the map.
    #[inline]
    pub fn insert(self, value: V) {
        *self.entry = Some(value);
    }
}

impl<'a, K, V> Entry<'a, K, V> {
    pub(crate) fn new(key: K, entry: &'a mut Option<V>) -> Self {
        if entry.is_some() {
            Entry::Occupied(OccupiedEntry { key, entry })
        } else {
            Entry::Vacant(VacantEntry { key, entry })
        }
    }

    /// Get the key of the entry.
    #[inline]
    pub fn key(&self) -> &K {
        match self {
            Entry::Occupied(entry) => entry.key(),
            Entry::Vacant(entry) => entry.key(),
        }
    }

    /// Convert the entry to an occupied entry.
    #[inline]
    pub fn or_insert(self, value: V) -> &'a mut V {
        match self {
            Entry::Occupied(entry) => entry.entry.as_mut().unwrap(),
            Entry::Vacant(entry) => entry.entry.insert(value),
        }
    }
}
"##

/-- `map/map.rs` -/
def mapRs : String := r##"use std::fmt;
use std::fmt::Debug;
use std::marker::PhantomData;

use crate::map::iter::ValuesMut;
use crate::map::total;
use crate::map::Drain;
use crate::map::Entry;
use crate::map::IntoIter;
use crate::map::Iter;
use crate::map::IterMut;
use crate::map::Keys;
use crate::map::Values;
use crate::Ordinal;

/// Map [`Ordinal`](crate::Ordinal) keys to values.
/// Map operations are constant time
/// (provided that [`K::ordinal()`](Ordinal::ordinal) is constant time).
///
/// This implementation allocates a boxed slice `[Option<V>; K::ORDINAL_SIZE]`
/// on the first insertion. For non-allocating map, consider using
/// [`OrdinalArrayMap`](crate::map::OrdinalArrayMap).
///
/// This implementation is sparse (not every key has an associated value).
/// For a total map, see [`OrdinalTotalMap`](total::OrdinalTotalMap)
/// and [`OrdinalTotalArrayMap`](total::OrdinalTotalArrayMap).
pub struct OrdinalMap<K, V> {
    // Empty when the map is just created.
    map: Box<[Option<V>]>,
    _phantom: PhantomData<K>,
}

impl<K: Ordinal, V> OrdinalMap<K, V> {
    /// Create a new empty map.
    /// This operation does not allocate memory, but first insertion allocates the whole map.
    #[inline]
    pub fn new() -> Self {
        OrdinalMap {
            map: Box::default(),
            _phantom: PhantomData,
        }
    }

    /// Returns a reference to the value corresponding to the key.
    #[inline]
    pub fn get<'a>(&'a self, key: &K) -> Option<&'a V> {
        self.map.get(key.ordinal())?.as_ref()
    }

    /// Returns a mutable reference to the value corresponding to the key.
    #[inline]
    pub fn get_mut<'a>(&'a mut self, key: &K) -> Option<&'a mut V> {
        self.map.get_mut(key.ordinal())?.as_mut()
    }

    /// Returns `true` if the map contains the key.
    #[inline]
    pub fn contains_key(&self, key: &K) -> bool {
        self.map.get(key.ordinal()).is_some()
    }

    /// Returns the number of elements in the map. This is an `O(K::ORDINAL_SIZE)` operation.
    #[inline]
    pub fn len(&self) -> usize {
        self.iter().count()
    }

    /// Return true if the map container no elements.
    #[inline]
    pub fn is_empty(&self) -> bool {
        self.iter().next().is_none()
    }

    fn init_full_map(&mut self) {
        if self.map.is_empty() {
            let mut map = Vec::with_capacity(K::ORDINAL_SIZE);
            for _ in 0..K::ORDINAL_SIZE {
                map.push(None);
            }
            self.map = map.into_boxed_slice();
        }
    }

    /// Insert a value into the map, returning the previous value if it existed.
    #[inline]
    pub fn insert(&mut self, key: K, value: V) -> Option<V> {
        self.init_full_map();
        self.map[key.ordinal()].replace(value)
    }

    /// Get an entry in the map for the given key.
    pub fn entry(&mut self, key: K) -> Entry<'_, K, V> {
        self.init_full_map();
        let entry = &mut self.map[key.ordinal()];
        Entry::new(key, entry)
    }

    /// Remove a value from the map, returning it if it existed.
    #[inline]
    pub fn remove(&mut self, key: &K) -> Option<V> {
        self.map.get_mut(key.ordinal())?.take()
    }

    /// Iterate over the map.
    #[inline]
    pub fn iter(&self) -> Iter<'_, K, V> {
        Iter::new(total::Iter::new(self.map.iter(), 0))
    }

    /// Iterate over the map mutably.
    #[inline]
    pub fn iter_mut(&mut self) -> IterMut<'_, K, V> {
        IterMut::new(total::IterMut::new(self.map.iter_mut()))
    }

    /// Iterate over the keys of the map.
    #[inline]
    pub fn keys(&self) -> Keys<'_, K, V> {
        Keys::new(self.iter())
    }

    /// Iterate over the values of the map.
    #[inline]
    pub fn values(&self) -> Values<'_, K, V> {
        Values::new(self.iter())
    }

    /// Iterate over the mutable references to the values of the map.
    #[inline]
    pub fn values_mut(&mut self) -> ValuesMut<'_, K, V> {
        ValuesMut::new(self.iter_mut())
    }

    /// Clears the map, returning all key-value pairs as an iterator.
    #[inline]
    pub fn drain(&mut self) -> Drain<'_, K, V> {
        Drain::new(total::IterMut::new(self.map.iter_mut()))
    }

    /// Remove all elements from the map.
    #[inline]
    pub fn clear(&mut self) {
        self.drain();
    }
}

impl<K: Ordinal, V> Default for OrdinalMap<K, V> {
    #[inline]
    fn default() -> Self {
        Self::new()
    }
}

impl<K: Ordinal, V> FromIterator<(K, V)> for OrdinalMap<K, V> {
    fn from_iter<I: IntoIterator<Item = (K, V)>>(iter: I) -> Self {
        let mut map = OrdinalMap::new();
        for (k, v) in iter {
            map.insert(k, v);
        }
        map
    }
}

impl<K, V: Clone> Clone for OrdinalMap<K, V> {
    fn clone(&self) -> Self {
        OrdinalMap {
            map: self.map.clone(),
            _phantom: PhantomData,
        }
    }
}

impl<K: Ordinal + Debug, V: Debug> Debug for OrdinalMap<K, V> {
    fn fmt(&self, f: &mut fmt::Formatter<'_>) -> fmt::Result {
        f.debug_map().entries(self.iter()).finish()
    }
}

impl<K: Ordinal, V> IntoIterator for OrdinalMap<K, V> {
    type Item = (K, V);
    type IntoIter = IntoIter<K, V>;

    #[inline]
    fn into_iter(self) -> Self::IntoIter {
        IntoIter::new(total::IntoIter::new(self.map.into_vec().into_iter()))
    }
}

impl<'a, K: Ordinal, V> IntoIterator for &'a OrdinalMap<K, V> {
    type Item = (K, &'a V);
    type IntoIter = Iter<'a, K, V>;

    #[inline]
    fn into_iter(self) -> Self::IntoIter {
        self.iter()
    }
}

#[cfg(test)]
mod tests {
    use std::collections::HashMap;

    use crate::map::OrdinalMap;

    #[quickcheck]
    fn qc(values: Vec<(u8, u32)>, check: Vec<u8>) {
        let mut map: OrdinalMap<u8, u32> = OrdinalMap::new();
        let mut control: HashMap<u8, u32> = HashMap::new();

        for (key, value) in &values {
            let control_inserted = control.insert(*key, *value);
            let inserted = map.insert(*key, *value);
            assert_eq!(control_inserted, inserted);
            assert_eq!(control.len(), map.len());
        }

        for key in &check {
            assert_eq!(control.get(key), map.get(key));
        }
    }
}
"##

/-- `map/array_map.rs` -/
def mapArrayMapRs : String := r##"use std::fmt;
use std::fmt::Debug;

use crate::map::iter::IntoIterArray;
use crate::map::iter::Iter;
use crate::map::iter::IterMut;
use crate::map::iter::ValuesMut;
use crate::map::total::array_map::OrdinalTotalArrayMap;
use crate::map::Drain;
use crate::map::Entry;
use crate::map::Keys;
use crate::map::Values;
use crate::Ordinal;

/// Map backed by an array, allocated on the stack.
///
/// Due to Rust limitations, the array size must be provided as a type parameter.
///
/// # Example
///
/// ```
/// use ordinal_map::map::OrdinalArrayMap;
/// use ordinal_map::Ordinal;
/// #[derive(Ordinal)]
/// enum Weather {
///     Sunny,
///     Rainy,
///     Snowy,
/// }
///
/// let mut map = OrdinalArrayMap::<_, _, { Weather::ORDINAL_SIZE }>::new();
/// map.insert(Weather::Sunny, "good");
/// map.insert(Weather::Rainy, "it depends");
/// ```
///
/// This map is sparse (not every key has an associated value).
/// For a total map, see [`OrdinalTotalMap`](crate::map::total::OrdinalTotalMap)
/// and [`OrdinalTotalArrayMap`](OrdinalTotalArrayMap).
pub struct OrdinalArrayMap<K, V, const S: usize> {
    map: OrdinalTotalArrayMap<K, Option<V>, S>,
}

impl<K: Ordinal, V, const S: usize> OrdinalArrayMap<K, V, S> {
    /// Create a new map.
    #[inline]
    pub fn new() -> Self {
        OrdinalArrayMap {
            map: OrdinalTotalArrayMap::new(|_| None),
        }
    }

    /// The number of elements in the map.
    ///
    /// This operation is `O(K::ORDINAL_SIZE)`.
    #[inline]
    pub fn len(&self) -> usize {
        self.iter().count()
    }

    /// Return true if the map container no elements.
    pub fn is_empty(&self) -> bool {
        self.iter().next().is_none()
    }

    /// Look up a value by key.
    #[inline]
    pub fn get<'a>(&'a self, key: &K) -> Option<&'a V> {
        self.map.get(key).as_ref()
    }

    /// Look up a value by key.
    #[inline]
    pub fn get_mut<'a>(&'a mut self, key: &K) -> Option<&'a mut V> {
        self.map.get_mut(key).as_mut()
    }

    /// Check if the map contains a key.
    #[inline]
    pub fn contains_key(&self, key: &K) -> bool {
        self.get(key).is_some()
    }

    /// Insert a value into the map, returning the previous value if it existed.
    #[inline]
    pub fn insert(&mut self, key: K, value: V) -> Option<V> {
        self.map.get_mut(&key).replace(value)
    }

    /// Get an entry in the map for the given key.
    #[inline]
    pub fn entry(&mut self, key: K) -> Entry<'_, K, V> {
        let entry = &mut self.map[&key];
        Entry::new(key, entry)
    }

    /// Remove a value from the map, returning it if it existed.
    #[inline]
    pub fn remove(&mut self, key: &K) -> Option<V> {
        self.map.get_mut(key).take()
    }

    /// Iterate over the map.
    #[inline]
    pub fn iter<'a>(&'a self) -> Iter<'a, K, V> {
        Iter::new(self.map.iter())
    }

    /// Iterate over the map mutably.
    #[inline]
    pub fn iter_mut<'a>(&'a mut self) -> IterMut<'a, K, V> {
        IterMut::new(self.map.iter_mut())
    }

    /// Iterate over the keys of the map.
    #[inline]
    pub fn keys(&self) -> Keys<'_, K, V> {
        Keys::new(self.iter())
    }

    /// Iterate over the values of the map.
    #[inline]
    pub fn values(&self) -> Values<'_, K, V> {
        Values::new(self.iter())
    }

    /// Iterate over the values of the map mutably.
    #[inline]
    pub fn values_mut(&mut self) -> ValuesMut<'_, K, V> {
        ValuesMut::new(self.iter_mut())
    }

    /// Remove all elements from the map.
    #[inline]
    pub fn drain(&mut self) -> Drain<'_, K, V> {
        Drain::new(self.map.iter_mut())
    }

    /// Remove all elements from the map.
    #[inline]
    pub fn clear(&mut self) {
        self.drain();
    }

    /// Retain only the elements specified by the predicate.
    pub fn retain<F>(&mut self, mut f: F)
    where
        F: FnMut(K, &mut V) -> bool,
    {
        for (key, value_opt) in self.map.iter_mut() {
            if let Some(value) = value_opt {
                if !f(key, value) {
                    *value_opt = None;
                }
            }
        }
    }
}

impl<K: Ordinal, V, const S: usize> Default for OrdinalArrayMap<K, V, S> {
    #[inline]
    fn default() -> Self {
        OrdinalArrayMap::new()
    }
}

impl<K: Ordinal, V, const S: usize> FromIterator<(K, V)> for OrdinalArrayMap<K, V, S> {
    fn from_iter<I: IntoIterator<Item = (K, V)>>(iter: I) -> Self {
        let mut map = OrdinalArrayMap::new();
        for (key, value) in iter {
            map.insert(key, value);
        }
        map
    }
}

impl<K: Ordinal, V: Clone, const S: usize> Clone for OrdinalArrayMap<K, V, S> {
    fn clone(&self) -> Self {
        OrdinalArrayMap {
            map: self.map.clone(),
        }
    }
}

impl<K: Ordinal + Debug, V: Debug, const S: usize> Debug for OrdinalArrayMap<K, V, S> {
    fn fmt(&self, f: &mut fmt::Formatter<'_>) -> fmt::Result {
        f.debug_map().entries(self.iter()).finish()
    }
}

impl<K: Ordinal, V, const S: usize> IntoIterator for OrdinalArrayMap<K, V, S> {
    type Item = (K, V);
    type IntoIter = IntoIterArray<K, V, S>;

    #[inline]
    fn into_iter(self) -> Self::IntoIter {
        IntoIterArray::new(self.map.into_iter())
    }
}

impl<'a, K: Ordinal, V, const S: usize> IntoIterator for &'a OrdinalArrayMap<K, V, S> {
    type Item = (K, &'a V);
    type IntoIter = Iter<'a, K, V>;

    #[inline]
    fn into_iter(self) -> Self::IntoIter {
        self.iter()
    }
}

#[cfg(test)]
mod tests {
    use std::collections::HashMap;
    use std::collections::HashSet;

    use crate::map::OrdinalArrayMap;
    use crate::Ordinal;

    #[quickcheck]
    fn qc(values: Vec<(u8, u32)>, check: Vec<u8>) {
        let mut map: OrdinalArrayMap<u8, u32, { u8::ORDINAL_SIZE }> = OrdinalArrayMap::new();
        let mut control: HashMap<u8, u32> = HashMap::new();

        for (key, value) in &values {
            let control_inserted = control.insert(*key, *value);
            let inserted = map.insert(*key, *value);
            assert_eq!(control_inserted, inserted);
            assert_eq!(control.len(), map.len());
        }

        for key in &check {
            assert_eq!(control.get(key), map.get(key));
        }
    }

    #[quickcheck]
    fn qc_retain(values: Vec<(u8, u32)>, retain: Vec<u8>) -> bool {
        let retain: HashSet<u8> = HashSet::from_iter(retain);

        let mut map = OrdinalArrayMap::<u8, u32, { u8::ORDINAL_SIZE }>::from_iter(values.clone());
        let mut control: HashMap<u8, u32> = HashMap::from_iter(values);

        map.retain(|key, _| retain.contains(&key));
        control.retain(|key, _| retain.contains(key));

        control == HashMap::from_iter(map)
    }
}
"##

/-- `array_from_iter.rs` -/
def arrayFromIterRs : String := r##"use crate::array_builder::ArrayBuilder;

pub fn array_from_iter<T, I, const S: usize>(iter: I) -> [T; S]
where
    I: IntoIterator<Item = T>,
{
    let mut builder = ArrayBuilder::new();
    for item in iter {
        builder.push(item);
    }
    builder.finish()
}

#[cfg(test)]
mod tests {
    use crate::array_from_iter::array_from_iter;

    #[test]
    fn test_array_from_iter() {
        let array = array_from_iter((0..3).map(|i| i.to_string()));
        assert_eq!(["0".to_owned(), "1".to_owned(), "2".to_owned()], array);
    }
}
"##

/-- `array_as_mut.rs` -/
def arrayAsMutRs : String := r##"use crate::array_builder::ArrayBuilder;

pub(crate) fn array_as_mut<T, const S: usize>(array: &mut [T; S]) -> [&mut T; S] {
    let mut array: &mut [T] = array;

    let mut result = ArrayBuilder::new();
    while let Some((first, rest)) = array.split_first_mut() {
        result.push(first);
        array = rest;
    }
    result.finish()
}
"##

end OrdinalMap.Text
